import Mathlib.Analysis.SpecialFunctions.Sqrt
import Verif.Py.Basic

/-!
# The settings of matplotlib and its open figures: `plotting/setup.py:9-102`, `:125-126` and the constructors of the plotters

`mpl.rcParams` is a dictionary from names to values; pyplot keeps every figure it made until it is closed. What the plotters draw is not part of this model.
-/

namespace Verif.Model

open Verif.Py

/-- the value of a setting; `colours` names a colour map whose colours are cycled through -/
inductive RcValue where
  | num (q : ℚ)
  | text (s : String)
  | flag (b : Bool)
  | size (w h : ℝ)
  | colours (map : String)

/-- `Plotter.golden_figsize` (`plotting/setup.py:84-92`), in inches -/
noncomputable def goldenFigsize (scale : ℝ) : ℝ × ℝ :=
  let width := 421.10046 * (1 / 72.27) * scale
  (width, width * ((Real.sqrt 5 - 1) / 2))

/-- `Plotter.get_figsize` (`plotting/setup.py:94-98`) -/
noncomputable def getFigsize (sidebyside : Bool) : ℝ × ℝ := if sidebyside then goldenFigsize 0.6 else goldenFigsize 0.9

/-- `rc` (`plotting/setup.py:24-58`) -/
noncomputable def plotterRc (sidebyside : Bool) : Dict String RcValue :=
  [("font.size", .num 8), ("axes.titlesize", .num 8), ("axes.labelsize", .num 8), ("legend.fontsize", .num 6), ("axes.prop_cycle", .colours "Dark2"),
   ("xtick.labelsize", .num 8), ("xtick.direction", .text "in"), ("xtick.major.size", .num 3), ("xtick.major.width", .num (1 / 2)),
   ("xtick.minor.size", .num (3 / 2)), ("xtick.minor.width", .num (1 / 2)), ("xtick.minor.visible", .flag true), ("xtick.top", .flag true),
   ("ytick.labelsize", .num 8), ("ytick.direction", .text "in"), ("ytick.major.size", .num 3), ("ytick.major.width", .num (1 / 2)),
   ("ytick.minor.size", .num (3 / 2)), ("ytick.minor.width", .num (1 / 2)), ("ytick.minor.visible", .flag true), ("ytick.right", .flag true),
   ("axes.linewidth", .num (1 / 2)), ("grid.linewidth", .num (1 / 2)), ("lines.linewidth", .num 1),
   ("savefig.bbox", .text "tight"), ("savefig.pad_inches", .num (1 / 20)),
   ("figure.figsize", .size (getFigsize sidebyside).1 (getFigsize sidebyside).2), ("lines.markeredgewidth", .num 1)]

/-- `talk_rc` (`plotting/setup.py:61-70`) -/
def talkRc : Dict String RcValue :=
  [("font.family", .text "Latin Modern Roman"), ("xtick.labelsize", .num 12), ("ytick.labelsize", .num 12), ("font.size", .num 12), ("axes.titlesize", .num 12),
   ("axes.labelsize", .num 12), ("legend.fontsize", .num 10), ("lines.markeredgewidth", .num 1)]

/-- the figures axes may belong to: one made by the caller, or one made by a plotter -/
inductive Figure where
  | own (k : Nat)
  | made (k : Nat)
deriving DecidableEq

/-- the settings, the figures pyplot has open, the number of figures made so far, and the figure (`fig`) of every plotter made so far -/
structure Pyplot where
  rc : Dict String RcValue
  opened : List Figure
  count : Nat
  plotters : List Figure

/-- `plt.figure(...)`: a new figure, kept open -/
def newFigure (s : Pyplot) : Pyplot × Figure := ({ s with opened := s.opened ++ [.made s.count], count := s.count + 1 }, .made s.count)

/-- `plt.close(fig)`; nothing happens if it is closed already -/
def closeFigure (s : Pyplot) (f : Figure) : Pyplot := { s with opened := s.opened.filter (· ≠ f) }

/-- `mpl.rcParams.update(rc)` -/
def setRc (s : Pyplot) (rc : Dict String RcValue) : Pyplot := { s with rc := Dict.update s.rc rc }

/-- axes given to a plotter: of a figure of the caller, or of the figure of the i-th plotter made -/
inductive Axes where
  | own (k : Nat)
  | of (i : Nat)

/-- the arguments of `Plotter.__init__` that were passed -/
structure PlotterArgs where
  ax : Option Axes
  sidebyside : Option Bool
  talk : Option Bool

/-- the classes of plotters -/
inductive PlotterKind where
  /-- `Plotter` itself and `SPEHist` (`scripts/plot_spe.py:31`), with its constructor -/
  | plain
  /-- `WaveformPlotter` (`plotting/waveform.py:14-33`) -/
  | waveform
  /-- `ChargeResolutionPlotter`, `ChargeResolutionWRRPlotter` and `ChargeMeanPlotter` (`plotting/resolutions.py:24-27`, `:197-202`) -/
  | resolution
  /-- `CameraImage` (`plotting/camera.py:13-34`) -/
  | image
  /-- `CameraImageImshow` (`plotting/camera.py:344-363`) -/
  | imshow
  /-- `SpectrumFitPlotter` (`plotting/spe.py:6-12`) -/
  | spectrum
  /-- `CameraTMWaveformPlotter` (`plotting/waveform.py:55-61`) -/
  | modules
  /-- `CameraPixelWaveformPlotter` (`plotting/waveform.py:193-205`) -/
  | pixels
  /-- `SPECamera` (`scripts/plot_spe.py:15-24`) -/
  | speCamera
deriving DecidableEq

/-- the arguments the constructor of the class has: `(ax, sidebyside, talk)`; others are a `TypeError` -/
def PlotterKind.accepts : PlotterKind → Bool × Bool × Bool
  | .plain | .image | .imshow | .spectrum => (true, true, true)
  | .waveform => (true, false, true)
  | .resolution | .modules | .pixels | .speCamera => (false, false, false)

/-- whether the call binds -/
def PlotterKind.binds (k : PlotterKind) (a : PlotterArgs) : Bool :=
  (a.ax.isNone || k.accepts.1) && (a.sidebyside.isNone || k.accepts.2.1) && (a.talk.isNone || k.accepts.2.2)

/-- the figure of the axes; `none` if there is no such plotter -/
def axesFigure (s : Pyplot) : Axes → Option Figure
  | .own k => some (.own k)
  | .of i => s.plotters[i]?

/-- `Plotter.__init__` (`plotting/setup.py:22-82`) with the figure of the axes, if any (`if ax`: axes are true) -/
noncomputable def plotterInit (s : Pyplot) (ax : Option Figure) (sidebyside talk : Bool) : Pyplot × Figure :=
  let rc := plotterRc sidebyside
  let rc := if talk then Dict.update rc talkRc else rc
  let s := setRc s rc
  match ax with
  | some f => (s, f)
  | none => newFigure s

/-- the constructor of the class after binding its arguments: settings and figures only. `modules`, `pixels` and `speCamera` replace the figure of `Plotter.__init__` by a new one,
`spectrum` closes it first (`plotting/spe.py:8`). The two `CameraImage` of a `SPECamera` are drawn into its second figure. -/
noncomputable def constructPlotter (s : Pyplot) (k : PlotterKind) (ax : Option Figure) (sidebyside talk : Bool) : Pyplot × Figure :=
  let (s, f) := plotterInit s ax sidebyside talk
  match k with
  | .plain | .waveform | .resolution | .imshow => (s, f)
  | .image => (setRc s [("xtick.direction", .text "out"), ("ytick.direction", .text "out")], f)
  | .spectrum => newFigure (closeFigure s f)
  | .modules => newFigure s
  | .pixels => newFigure (setRc s [("axes.linewidth", .num (1 / 10))])
  | .speCamera =>
    let (s, f) := newFigure s
    let image (s : Pyplot) : Pyplot :=
      setRc (plotterInit s (some f) false false).1 [("xtick.direction", .text "out"), ("ytick.direction", .text "out")]
    (image (image s), f)

/-- what a program does with plotters: make one; close the i-th one made (`Plotter.close`, `plotting/setup.py:125-126`, also the end of a successful `Plotter.save`, `:120`) -/
inductive PlotAct where
  | make (k : PlotterKind) (a : PlotterArgs)
  | close (i : Nat)

/-- one action. Arguments of another class are a `TypeError` and a plotter that was not made an `IndexError` (of the list the program keeps them in), both without an effect. -/
noncomputable def plotStep (s : Pyplot) : PlotAct → Except Err Pyplot
  | .make k a =>
    if k.binds a = false then .error .typeError
    else
      let make (ax : Option Figure) : Except Err Pyplot :=
        let r := constructPlotter s k ax (a.sidebyside.getD false) (a.talk.getD false)
        .ok { r.1 with plotters := r.1.plotters ++ [r.2] }
      match a.ax with
      | none => make none
      | some ax => match axesFigure s ax with
        | none => .error .indexError
        | some f => make (some f)
  | .close i => match s.plotters[i]? with
    | none => .error .indexError
    | some f => .ok (closeFigure s f)

/-- a program: failed actions are skipped -/
noncomputable def plotRun (s : Pyplot) : List PlotAct → Pyplot
  | [] => s
  | act :: acts => match plotStep s act with
    | .error _ => plotRun s acts
    | .ok s => plotRun s acts

end Verif.Model
