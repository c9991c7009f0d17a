import Verif.Model.Camera
import Verif.Py.Decimal

/-! # `utils/mapping.py:135-174`: the camera geometry for ctapipe -/

namespace Verif.Model

open Verif.Py

/-- the units of a length or angle -/
inductive PosUnit
  | metre
  | degree
  deriving DecidableEq

/-- the arguments of ctapipe's `CameraGeometry` made from the mapping -/
structure Geometry where
  pixId : List Nat
  pixX : List ℚ
  pixY : List ℚ
  unit : PosUnit

/-- `get_ctapipe_camera_geometry` (`utils/mapping.py:135-174`): `pos` is the position of a row. The entry `n_pixels` of the metadata is a number, written in digits
in `MapMeta.others`. The shape, area, frame and sampling rate are constants; ctapipe's class is not modelled. -/
def cameraGeometry {ρ : Type} (pos : ρ → ℚ × ℚ) (heap : List MapMeta) (m : Mapping ρ) : Except Err Geometry :=
  match heap[m.metaRef]? with
  | none => .error .attributeError
  | some md => match md.others.find? fun e => e.1 == "n_pixels" with
    | none => .error .keyError
    | some e => .ok ⟨List.range (parseDec e.2.toList), m.rows.map fun r => (pos r).1, m.rows.map fun r => (pos r).2, .metre⟩

end Verif.Model
