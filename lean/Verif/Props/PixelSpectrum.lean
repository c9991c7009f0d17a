import Verif.Model.PixelSpectrum
import Verif.Props.SpeFromDl1
import Verif.Props.SpectrumFitter

/-!
# C160: the charge spectrum of a pixel beside that of all pixels
-/

namespace Verif.Props

open Verif.Py Verif.Model Verif.Spec Verif.Lemmas

variable {τ ν : Type}

/-! ### vocabulary -/

/-- `curve` has, for each of `n` bins of equal width from `a` to `b`, the share of the values `qs` from its lower edge up to, and in the last bin including, its upper
edge, per unit of charge; the area below the curve is 1 -/
def DensityOf (n : Nat) (a b : ℚ) (qs : List ℚ) (curve : List (Option ℚ)) : Prop :=
  curve.length = n ∧
  (∀ k < n, curve[k]? = some (some (((qs.filter fun q =>
    decide (a + k * ((b - a) / n) ≤ q ∧ (q < a + (k + 1) * ((b - a) / n) ∨ k + 1 = n ∧ q = b))).length : ℚ) / qs.length / ((b - a) / n)))) ∧
  (curve.map fun h => h.getD 0 * ((b - a) / n)).sum = 1

/-! ### one curve -/

theorem counts_sum (n : Nat) (range : ℚ × ℚ) (hn : 0 < n) (hr : range.1 < range.2) (qs : List ℚ) (hq : ∀ q ∈ qs, range.1 ≤ q ∧ q ≤ range.2) :
    (histCounts n range qs).sum = (qs.length : ℚ) := by
  obtain ⟨e1, e2, e3, -⟩ := C86_edges n range hn
  have hinc := histEdges_lt n range hn hr
  unfold histCounts
  revert e1 e2 e3 hinc
  cases histEdges n range with
  | nil => intro e1; simp at e1
  | cons a edges =>
    intro e1 e2 e3 hinc
    simp only [List.getElem?_cons_zero, Option.some.injEq] at e2
    have hne : edges ≠ [] := by
      rintro rfl
      simp at e1
      omega
    rw [sum_counts edges a hinc hne qs]
    have hl : (a :: edges).getLast (by simp) = range.2 := by
      have := List.getLast?_eq_getElem? (l := a :: edges)
      rw [e1, Nat.add_sub_cancel, e3, List.getLast?_eq_getLast_of_ne_nil (by simp)] at this
      exact Option.some.inj this
    rw [hl, e2, List.filter_eq_self.2 fun q h => by simpa using hq q h]

theorem zipWith_bins (w S : ℚ) (edges counts : List ℚ) (hw : ∀ bin ∈ binsOf edges, bin.2.1 - bin.1 = w) (hl : (binsOf edges).length = counts.length) :
    List.zipWith (fun (bin : ℚ × ℚ × Bool) c => some (c / (bin.2.1 - bin.1) / S)) (binsOf edges) counts = counts.map fun c => some (c / w / S) := by
  generalize binsOf edges = bins at hw hl
  induction bins generalizing counts with
  | nil => cases counts with
    | nil => rfl
    | cons c cs => simp at hl
  | cons b bins ih => cases counts with
    | nil => simp at hl
    | cons c cs =>
      rw [List.zipWith_cons_cons, List.map_cons, hw b (by simp), ih cs (fun x hx => hw x (by simp [hx])) (by simpa using hl)]

theorem mem_binsOf (edges : List ℚ) (bin : ℚ × ℚ × Bool) (h : bin ∈ binsOf edges) : ∃ k, edges[k]? = some bin.1 ∧ edges[k + 1]? = some bin.2.1 := by
  induction edges with
  | nil => cases h
  | cons a edges ih => cases edges with
    | nil => cases h
    | cons b edges =>
      rw [binsOf_first] at h
      rcases List.mem_cons.1 h with rfl | h
      · exact ⟨0, rfl, rfl⟩
      · obtain ⟨k, h1, h2⟩ := ih h
        exact ⟨k + 1, by simpa using h1, by simpa using h2⟩

theorem bins_width (n : Nat) (range : ℚ × ℚ) (hn : 0 < n) : ∀ bin ∈ binsOf (histEdges n range), bin.2.1 - bin.1 = (range.2 - range.1) / n := by
  intro bin hb
  obtain ⟨k, h1, h2⟩ := mem_binsOf _ _ hb
  obtain ⟨e1, -, -, e4⟩ := C86_edges n range hn
  have hk : k < n := by
    have := (List.getElem?_eq_some_iff.1 h2).1
    omega
  obtain ⟨a, b, g1, g2, g3⟩ := e4 k hk
  rw [g1] at h1
  rw [g2] at h2
  rw [← Option.some.inj h1, ← Option.some.inj h2, g3]

theorem density_of (n : Nat) (range : ℚ × ℚ) (hn : 0 < n) (hr : range.1 < range.2) (qs : List ℚ) (hne : qs ≠ []) (hq : ∀ q ∈ qs, range.1 ≤ q ∧ q ≤ range.2) :
    DensityOf n range.1 range.2 qs (densities (histEdges n range) (histCounts n range qs)) := by
  have hS := counts_sum n range hn hr qs hq
  have hlen : (qs.length : ℚ) ≠ 0 := by exact_mod_cast (fun h => hne (List.length_eq_zero_iff.1 h))
  have hn' : (n : ℚ) ≠ 0 := by exact_mod_cast hn.ne'
  have hw : (range.2 - range.1) / (n : ℚ) ≠ 0 := div_ne_zero (by linarith) hn'
  obtain ⟨c1, c2⟩ := histogramOf_counts n range qs
  have hz : densities (histEdges n range) (histCounts n range qs) =
      (histCounts n range qs).map fun c => some (c / ((range.2 - range.1) / n) / qs.length) := by
    unfold densities
    rw [if_neg (by rw [hS]; exact hlen), hS]
    refine zipWith_bins _ _ _ _ (bins_width n range hn) ?_
    unfold histCounts
    rw [List.length_map]
  rw [hz]
  refine ⟨by rw [List.length_map, c1], fun k hk => ?_, ?_⟩
  · rw [List.getElem?_map, c2 k hk, Option.map_some, div_right_comm]
  · rw [List.map_map]
    have : ((fun h : Option ℚ => h.getD 0 * ((range.2 - range.1) / n)) ∘ fun c => some (c / ((range.2 - range.1) / n) / qs.length)) = fun c : ℚ => c * (qs.length : ℚ)⁻¹ := by
      funext c
      simp only [Function.comp, Option.getD_some]
      generalize (range.2 - range.1) / (n : ℚ) = w at hw
      field_simp
    rw [this, List.sum_map_mul_right, List.map_id', hS]
    exact mul_inv_cancel₀ hlen

theorem density_none (n : Nat) (range : ℚ × ℚ) : ∀ h ∈ densities (histEdges n range) (histCounts n range []), h = none := by
  have hz : (histCounts n range []).sum = 0 := by
    unfold histCounts
    simp
  intro h hm
  unfold densities at hm
  rw [if_pos hz] at hm
  obtain ⟨c, -, rfl⟩ := List.mem_map.1 hm
  rfl

/-! ### rows and columns -/

/-- every value of an array of `n` columns is in one of them -/
theorem filter_columns (n : Nat) (P : ℚ → Bool) (vs : List (List ℚ)) (h : ∀ v ∈ vs, v.length = n) :
    (vs.flatten.filter P).length = (((List.range n).map (column vs)).flatten.filter P).length := by
  have hs : ∀ ls : List (List ℚ), (ls.flatten.filter P).length = (ls.map fun l => (l.filter P).length).sum := by
    intro ls
    induction ls with
    | nil => rfl
    | cons l ls ih => rw [List.flatten_cons, List.filter_append, List.length_append, ih, List.map_cons, List.sum_cons]
  rw [hs ((List.range n).map (column vs)), List.map_map]
  induction vs with
  | nil =>
    have : ((fun l : List ℚ => (l.filter P).length) ∘ column []) = fun _ : Nat => 0 := rfl
    rw [this]
    simp
  | cons v vs ih =>
    have hv := h v (by simp)
    have e : ((fun l : List ℚ => (l.filter P).length) ∘ column (v :: vs)) =
        fun p : Nat => (([v.getD p 0] : List ℚ).filter P).length + ((fun l : List ℚ => (l.filter P).length) ∘ column vs) p := by
      funext p
      simp only [Function.comp, column, List.map_cons]
      rw [← List.singleton_append, List.filter_append, List.length_append]
    rw [e, List.sum_map_add, ← ih fun x hx => h x (by simp [hx]), List.flatten_cons, List.filter_append, List.length_append]
    congr 1
    have hr : v = (List.range n).map fun p => v.getD p 0 := by
      apply List.ext_getElem
      · simp [hv]
      · intro i h1 h2
        simp [List.getD_eq_getElem?_getD, h1]
    have hone : ∀ l : List Nat, ((l.map fun p => v.getD p 0).filter P).length = (l.map fun p => (([v.getD p 0] : List ℚ).filter P).length).sum := by
      intro l
      induction l with
      | nil => rfl
      | cons p l ih => rw [List.map_cons, ← List.singleton_append, List.filter_append, List.length_append, ih, List.map_cons, List.sum_cons]
    conv_lhs => rw [hr]
    exact hone _

theorem mem_columns (n : Nat) (vs : List (List ℚ)) (h : ∀ v ∈ vs, v.length = n) (q : ℚ) : q ∈ vs.flatten ↔ q ∈ ((List.range n).map (column vs)).flatten := by
  have key : ∀ l : List ℚ, q ∈ l ↔ 0 < (l.filter fun x => decide (x = q)).length := by
    intro l
    rw [List.length_pos_iff_exists_mem]
    simp
  rw [key, key, filter_columns n _ vs h]

/-- the entries of a pixel, out of the events one after the other -/
theorem select_pixel (n : Nat) (pixel : Int) (vs : List (List ℚ)) (h : ∀ v ∈ vs, v.length = n) :
    (((((vs.map fun _ => (List.range n).map fun p : Nat => Cell.num (τ := τ) (p : ℚ)).flatten).zip vs.flatten).filter fun pc => pc.1.equals pixel).map (·.2)) =
      if 0 ≤ pixel ∧ pixel < n then column vs pixel.toNat else [] := by
  have hrow : ∀ v : List ℚ, v.length = n → (((((List.range n).map fun p : Nat => Cell.num (τ := τ) (p : ℚ)).zip v).filter fun pc => pc.1.equals pixel).map (·.2)) =
      if 0 ≤ pixel ∧ pixel < n then [v.getD pixel.toNat 0] else [] := by
    intro v hv
    have hz : ((List.range n).map fun p : Nat => Cell.num (τ := τ) (p : ℚ)).zip v = (List.range n).map fun p : Nat => (Cell.num (τ := τ) (p : ℚ), v.getD p 0) := by
      apply List.ext_getElem
      · simp [hv]
      · intro i h1 h2
        have : i < v.length := by simp at h2; omega
        simp [List.getD_eq_getElem?_getD, this]
    rw [hz, List.filter_map, List.map_map]
    have hf : ((fun pc : Cell τ × ℚ => pc.1.equals pixel) ∘ fun p : Nat => (Cell.num (τ := τ) (p : ℚ), v.getD p 0)) = fun p : Nat => decide ((p : Int) = pixel) := by
      funext p
      simp only [Function.comp, Cell.equals]
      rw [decide_eq_decide]
      exact_mod_cast Iff.rfl
    rw [hf]
    by_cases hp : 0 ≤ pixel ∧ pixel < n
    · rw [if_pos hp]
      obtain ⟨k, rfl⟩ := Int.eq_ofNat_of_zero_le hp.1
      have hk : k < n := by omega
      have : (List.range n).filter (fun p : Nat => decide ((p : Int) = (k : Int))) = [k] := by
        have h1 : (fun p : Nat => decide ((p : Int) = (k : Int))) = fun p : Nat => p == k := by
          funext p
          rw [Bool.eq_iff_iff]
          simp
        rw [h1, List.filter_beq, List.count_eq_one_of_mem List.nodup_range (List.mem_range.2 hk)]
        rfl
      rw [this]
      rfl
    · rw [if_neg hp, List.map_eq_nil_iff, List.filter_eq_nil_iff]
      intro p hpm
      have := List.mem_range.1 hpm
      simp only [decide_eq_true_eq]
      omega
  induction vs with
  | nil => by_cases hp : 0 ≤ pixel ∧ pixel < n <;> simp [hp, column]
  | cons v vs ih =>
    rw [List.map_cons, List.flatten_cons, List.flatten_cons, List.zip_append (by simp [h v (by simp)]), List.filter_append, List.map_append, hrow v (h v (by simp)),
      ih fun x hx => h x (by simp [hx])]
    by_cases hp : 0 ≤ pixel ∧ pixel < n
    · rw [if_pos hp, if_pos hp, if_pos hp]; rfl
    · rw [if_neg hp, if_neg hp, if_neg hp]; rfl

/-! ### the range -/

theorem dataRange_spec (qs : List ℚ) (hne : qs ≠ []) :
    (dataRange qs).1 ∈ qs ∧ (dataRange qs).2 ∈ qs ∧ ∀ q ∈ qs, (dataRange qs).1 ≤ q ∧ q ≤ (dataRange qs).2 := by
  have hmin : ∀ (l : List ℚ) (x : ℚ), (l.foldl min x = x ∨ l.foldl min x ∈ l) ∧ l.foldl min x ≤ x ∧ ∀ q ∈ l, l.foldl min x ≤ q := by
    intro l
    induction l with
    | nil => intro x; exact ⟨Or.inl rfl, le_refl _, by simp⟩
    | cons y l ih =>
      intro x
      obtain ⟨h1, h2, h3⟩ := ih (min x y)
      rw [List.foldl_cons]
      refine ⟨?_, h2.trans (min_le_left _ _), fun q hq => ?_⟩
      · rcases h1 with h1 | h1
        · rcases min_choice x y with h | h
          · exact Or.inl (h1.trans h)
          · exact Or.inr (by rw [h1, h]; simp)
        · exact Or.inr (by simp [h1])
      · rcases List.mem_cons.1 hq with rfl | hq
        · exact h2.trans (min_le_right _ _)
        · exact h3 q hq
  have hmax : ∀ (l : List ℚ) (x : ℚ), (l.foldl max x = x ∨ l.foldl max x ∈ l) ∧ x ≤ l.foldl max x ∧ ∀ q ∈ l, q ≤ l.foldl max x := by
    intro l
    induction l with
    | nil => intro x; exact ⟨Or.inl rfl, le_refl _, by simp⟩
    | cons y l ih =>
      intro x
      obtain ⟨h1, h2, h3⟩ := ih (max x y)
      rw [List.foldl_cons]
      refine ⟨?_, (le_max_left _ _).trans h2, fun q hq => ?_⟩
      · rcases h1 with h1 | h1
        · rcases max_choice x y with h | h
          · exact Or.inl (h1.trans h)
          · exact Or.inr (by rw [h1, h]; simp)
        · exact Or.inr (by simp [h1])
      · rcases List.mem_cons.1 hq with rfl | hq
        · exact (le_max_right _ _).trans h2
        · exact h3 q hq
  cases qs with
  | nil => exact absurd rfl hne
  | cons x l =>
    obtain ⟨a1, a2, a3⟩ := hmin l x
    obtain ⟨b1, b2, b3⟩ := hmax l x
    refine ⟨?_, ?_, ?_⟩
    · rcases a1 with a1 | a1
      · show l.foldl min x ∈ _; rw [a1]; simp
      · exact List.mem_cons_of_mem _ a1
    · rcases b1 with b1 | b1
      · show l.foldl max x ∈ _; rw [b1]; simp
      · exact List.mem_cons_of_mem _ b1
    · intro q hq
      rcases List.mem_cons.1 hq with rfl | hq
      · exact ⟨a2, b2⟩
      · exact ⟨a3 q hq, b3 q hq⟩

/-! ### the columns of a file -/

theorem spectrumCharges_blocks (r : HReader (DRow (Dict String (Cell τ))) ν) (n : Nat) (blocks : List (List (DRow (Dict String (Cell τ))))) (hb : BlockFile r n blocks)
    (hpix : ∀ b ∈ blocks, ∀ (p : Nat) row, b[p]? = some row → row.pixel = some p)
    (col : String) (h1 : col ≠ "iev") (h2 : col ≠ "pixel") (hnum : ∀ b ∈ blocks, ∀ row ∈ b, ∃ q, Dict.get? row.vals col = some (.num q)) :
    ∃ vs : List (List ℚ), blocks.map (List.map fun row => Dict.get? row.vals col) = vs.map (List.map fun q => some (Cell.num q)) ∧ (∀ v ∈ vs, v.length = n) ∧
      ∀ pixel : Int, spectrumCharges r col pixel = .ok (vs.flatten, if 0 ≤ pixel ∧ pixel < n then column vs pixel.toNat else []) := by
  obtain ⟨nd, n1, n2, n3⟩ := hb.node
  obtain ⟨vs, hvs⟩ := numbers_blocks (fun row : DRow (Dict String (Cell τ)) => Dict.get? row.vals col) blocks hnum
  have hlen : vs.length = blocks.length := by
    have := congrArg List.length hvs
    simpa using this.symm
  have hsize : ∀ v ∈ vs, v.length = n := by
    intro v hv
    have hm : v.map (fun q => some (Cell.num (τ := τ) q)) ∈ blocks.map (List.map fun row => Dict.get? row.vals col) := by
      rw [hvs]; exact List.mem_map_of_mem hv
    obtain ⟨b, hbm, hbe⟩ := List.mem_map.1 hm
    have := congrArg List.length hbe
    rw [List.length_map, List.length_map, hb.size b hbm] at this
    exact this.symm
  have hcol : selectColumnOf dl1Cells r "data" col none none = .ok (vs.flatten.map Cell.num) := by
    unfold selectColumnOf
    rw [n1]
    simp only [n3, Option.getD_none, List.drop_zero, List.take_length]
    apply mapM_getItem
    rw [n2, List.map_map, List.map_flatten, List.map_flatten]
    congr 1
    simp only [get?_dl1Cells _ col h1 h2]
    exact hvs
  have hpixels : selectColumnOf dl1Cells r "data" "pixel" none none = .ok (vs.map fun _ => (List.range n).map fun p : Nat => Cell.num (τ := τ) (p : ℚ)).flatten := by
    unfold selectColumnOf
    rw [n1]
    simp only [n3, Option.getD_none, List.drop_zero, List.take_length]
    apply mapM_getItem
    rw [n2, List.map_flatten, List.map_flatten, List.map_map]
    congr 1
    have hvb : (vs.map fun _ => (List.range n).map fun p : Nat => some (Cell.num (τ := τ) (p : ℚ))) = blocks.map fun _ => (List.range n).map fun p : Nat => some (Cell.num (τ := τ) (p : ℚ)) := by
      rw [List.map_const', List.map_const', hlen]
    have hcomp : (List.map some ∘ fun _ : List ℚ => (List.range n).map fun p : Nat => Cell.num (τ := τ) (p : ℚ)) = fun _ => (List.range n).map fun p : Nat => some (Cell.num (τ := τ) (p : ℚ)) := by
      funext v
      simp only [Function.comp, List.map_map]
      rfl
    rw [hcomp, hvb]
    refine List.map_congr_left fun b hbm => ?_
    have hbl := hb.size b hbm
    apply List.ext_getElem
    · simp [hbl]
    · intro i g1 g2
      have hi : i < b.length := by simpa using g1
      have := hpix b hbm i b[i] (List.getElem?_eq_getElem hi)
      rw [List.getElem_map, List.getElem_map, List.getElem_range]
      unfold dl1Cells
      rw [this]
      simp [Dict.get?]
  refine ⟨vs, hvs, hsize, fun pixel => ?_⟩
  unfold spectrumCharges
  rw [hpixels, hcol]
  simp only [mapM_number, select_pixel n pixel vs hsize]

/-! ### the plot -/

/-- C160: for a file made by `extract_dl1` the plot has 1000 bins of equal width between the least and the largest charge of all pixels and events (one unit wide around
the charge if there is but one value). The first curve is the distribution of all charges, the second that of the charges of the pixel, event by event; both have the area 1.
A pixel the camera does not have gives no curve (NaN in every bin). -/
theorem C160_curves [DecidableEq ν] (s : Store (DRow (Dict String (Cell τ))) ν) (n : Nat) (ids : List Nat) (mapping : List (DRow (Dict String (Cell τ))) × MetaDict ν)
    (h : Made s n ids mapping) (hid : ids.Pairwise (· < ·)) (hb : ∀ id ∈ ids, id < 2 ^ 32) (hne : ids ≠ []) (hp : 1 ≤ n) (hp' : n ≤ 2 ^ 32)
    (r : HReader (DRow (Dict String (Cell τ))) ν) (hr : openReader s = .ok r) (col : String) (h1 : col ≠ "iev") (h2 : col ≠ "pixel") (hnum : NumbersIn r col ids)
    (pixel : Int) :
    ∃ (plot : ChargeSpectrum) (qss : List (List ℚ)) (lo hi a b : ℚ), chargeSpectrum r col pixel = .ok plot ∧ qss.length = n ∧ (∀ p < n, ∃ qs, qss[p]? = some qs ∧ ChargesIn r col ids p qs) ∧
      lo ∈ qss.flatten ∧ hi ∈ qss.flatten ∧ (∀ q ∈ qss.flatten, lo ≤ q ∧ q ≤ hi) ∧
      (lo < hi ∧ a = lo ∧ b = hi ∨ lo = hi ∧ a = lo - 1 / 2 ∧ b = hi + 1 / 2) ∧
      plot.edges.length = 1001 ∧ (∀ k : Nat, k ≤ 1000 → plot.edges[k]? = some (a + (k : ℚ) * ((b - a) / 1000))) ∧
      DensityOf 1000 a b qss.flatten plot.all ∧
      (∀ p < n, pixel = p → ∀ qs, qss[p]? = some qs → DensityOf 1000 a b qs plot.pixel) ∧
      ((pixel < 0 ∨ n ≤ pixel) → ∀ height ∈ plot.pixel, height = none) := by
  obtain ⟨-, blocks, hbf, hf⟩ := made_blocks s n ids mapping h hid hb hne hp hp' r hr
  have hlen := hf.length_eq
  obtain ⟨vs, hvs, hsize, hch⟩ := spectrumCharges_blocks r n blocks hbf
    (by
      intro b hbm p row hrow
      obtain ⟨k, hk, rfl⟩ := List.mem_iff_getElem.1 hbm
      exact (hf.get (by omega) hk).2 p row hrow) col h1 h2 (by
      intro b hbm row hrow
      obtain ⟨k, hk, rfl⟩ := List.mem_iff_getElem.1 hbm
      exact hnum _ (List.getElem_mem (by omega)) _ (hf.get (by omega) hk).1 row hrow)
  have hvl : vs.length = blocks.length := by
    have := congrArg List.length hvs
    simpa using this.symm
  have hcharges : ∀ p < n, ChargesIn r col ids p (column vs p) := by
    intro p hpn
    refine ⟨by unfold column; rw [List.length_map, hvl, hlen], fun k id hk => ?_⟩
    obtain ⟨hk1, rfl⟩ := List.getElem?_eq_some_iff.1 hk
    have hk2 : k < blocks.length := by omega
    have hk3 : k < vs.length := by omega
    obtain ⟨g1, g2⟩ := hf.get hk1 hk2
    have hbl : blocks[k].length = n := hbf.size _ (List.getElem_mem hk2)
    have hvk : vs[k].length = n := hsize _ (List.getElem_mem hk3)
    have he : blocks[k].map (fun row => Dict.get? row.vals col) = vs[k].map fun q => some (Cell.num q) := by
      have := congrArg (fun l => l[k]?) hvs
      simpa [List.getElem?_map, hk2, hk3] using this
    refine ⟨_, blocks[k][p], vs[k][p], g1, List.getElem?_eq_getElem _, g2 p _ (List.getElem?_eq_getElem _), ?_, ?_⟩
    · have := congrArg (fun l => l[p]?) he
      simpa [List.getElem?_map, hbl, hvk, hpn] using this
    · unfold column
      rw [List.getElem?_map, List.getElem?_eq_getElem hk3]
      simp [List.getD_eq_getElem?_getD, hvk, hpn]
  have hflat : vs.flatten ≠ [] := by
    obtain ⟨v, vs', rfl⟩ : ∃ v vs', vs = v :: vs' := by
      cases vs with
      | nil =>
        have := List.length_pos_iff.2 hne
        simp at hvl
        omega
      | cons v vs' => exact ⟨v, vs', rfl⟩
    intro h0
    have hv0 : v = [] := (List.append_eq_nil_iff.1 (by rw [← List.flatten_cons]; exact h0)).1
    have := hsize v (by simp)
    rw [hv0] at this
    simp at this
    omega
  obtain ⟨d1, d2, d3⟩ := dataRange_spec vs.flatten hflat
  have hmem := mem_columns n vs hsize
  have hout : (outerEdges (dataRange vs.flatten)).1 < (outerEdges (dataRange vs.flatten)).2 ∧
      ∀ q ∈ vs.flatten, (outerEdges (dataRange vs.flatten)).1 ≤ q ∧ q ≤ (outerEdges (dataRange vs.flatten)).2 := by
    unfold outerEdges
    by_cases he : (dataRange vs.flatten).1 = (dataRange vs.flatten).2
    · rw [if_pos he]
      refine ⟨by simp only; linarith, fun q hq => ?_⟩
      have := d3 q hq
      constructor <;> simp only <;> linarith [this.1, this.2]
    · rw [if_neg he]
      exact ⟨lt_of_le_of_ne (d3 _ d2).1 he, d3⟩
  have hplot : chargeSpectrum r col pixel = .ok ⟨histEdges 1000 (outerEdges (dataRange vs.flatten)),
      densities (histEdges 1000 (outerEdges (dataRange vs.flatten))) (histCounts 1000 (outerEdges (dataRange vs.flatten)) vs.flatten),
      densities (histEdges 1000 (outerEdges (dataRange vs.flatten)))
        (histCounts 1000 (outerEdges (dataRange vs.flatten)) (if 0 ≤ pixel ∧ pixel < n then column vs pixel.toNat else []))⟩ := by
    unfold chargeSpectrum
    rw [hch pixel]
  refine ⟨_, (List.range n).map (column vs), (dataRange vs.flatten).1, (dataRange vs.flatten).2, (outerEdges (dataRange vs.flatten)).1, (outerEdges (dataRange vs.flatten)).2,
    hplot, by simp, fun p hpn => ⟨column vs p, by simp [hpn], hcharges p hpn⟩, (hmem _).1 d1, (hmem _).1 d2,
    fun q hq => d3 q ((hmem q).2 hq), ?_, by unfold histEdges; rw [List.length_map, List.length_range], fun k hk => ?_, ?_, ?_, ?_⟩
  · unfold outerEdges
    by_cases he : (dataRange vs.flatten).1 = (dataRange vs.flatten).2
    · rw [if_pos he]
      exact Or.inr ⟨he, rfl, rfl⟩
    · rw [if_neg he]
      exact Or.inl ⟨lt_of_le_of_ne (d3 _ d2).1 he, rfl, rfl⟩
  · simp only [histEdges]
    rw [List.getElem?_map, List.getElem?_range (by omega), Option.map_some, mul_div_assoc]
    norm_num
  · simp only
    obtain ⟨c1, c2, c3⟩ := density_of 1000 (outerEdges (dataRange vs.flatten)) (by omega) hout.1 vs.flatten hflat hout.2
    refine ⟨c1, fun k hk => ?_, c3⟩
    rw [c2 k hk, filter_columns n _ vs hsize]
    have := filter_columns n (fun _ => true) vs hsize
    rw [List.filter_eq_self.2 (by simp), List.filter_eq_self.2 (by simp)] at this
    rw [this]
  · rintro p hpn rfl qs hqs
    have hqs' : column vs p = qs := by simpa [hpn] using hqs
    subst hqs'
    have hc : (if (0 : Int) ≤ (p : Int) ∧ (p : Int) < n then column vs (p : Int).toNat else []) = column vs p := by
      rw [if_pos (by omega), Int.toNat_natCast]
    simp only [hc]
    refine density_of 1000 (outerEdges (dataRange vs.flatten)) (by omega) hout.1 _ ?_ fun q hq => hout.2 q ((hmem q).2 (List.mem_flatten.2 ⟨_, List.mem_map_of_mem (List.mem_range.2 hpn), hq⟩))
    intro h0
    have := congrArg List.length h0
    unfold column at this
    rw [List.length_map, hvl, ← hlen] at this
    exact hne (List.length_eq_zero_iff.1 this)
  · intro hp0
    have hc : (if 0 ≤ pixel ∧ pixel < n then column vs pixel.toNat else []) = [] := if_neg (by omega)
    simp only [hc]
    exact density_none 1000 (outerEdges (dataRange vs.flatten))

/-- A column the file does not have is a `KeyError`. -/
theorem C160_missing [DecidableEq ν] (s : Store (DRow (Dict String (Cell τ))) ν) (n : Nat) (ids : List Nat) (mapping : List (DRow (Dict String (Cell τ))) × MetaDict ν)
    (h : Made s n ids mapping) (hid : ids.Pairwise (· < ·)) (hb : ∀ id ∈ ids, id < 2 ^ 32) (hne : ids ≠ []) (hp : 1 ≤ n) (hp' : n ≤ 2 ^ 32)
    (r : HReader (DRow (Dict String (Cell τ))) ν) (hr : openReader s = .ok r) (col : String) (h1 : col ≠ "iev") (h2 : col ≠ "pixel")
    (hno : ∃ id ∈ ids, ∃ rows row, dl1GetItem r id = .ok rows ∧ row ∈ rows ∧ Dict.get? row.vals col = none) (pixel : Int) :
    chargeSpectrum r col pixel = .error .keyError := by
  obtain ⟨-, blocks, hbf, hf⟩ := made_blocks s n ids mapping h hid hb hne hp hp' r hr
  obtain ⟨id, hidm, rows, row, g, hrow, hnone⟩ := hno
  obtain ⟨k, hk, rfl⟩ := List.mem_iff_getElem.1 hidm
  have hk' : k < blocks.length := by rw [← hf.length_eq]; exact hk
  obtain rfl := Except.ok.inj (g.symm.trans (hf.get hk hk').1)
  obtain ⟨nd, n1, n2, n3⟩ := hbf.node
  have hmem : row ∈ nd.rows := by rw [n2]; exact List.mem_flatten.2 ⟨_, List.getElem_mem hk', hrow⟩
  have hgen : ∀ name, (∃ row ∈ nd.rows, Dict.get? (dl1Cells row) name = none) → selectColumnOf dl1Cells r "data" name none none = .error .keyError := by
    rintro name ⟨row, hm, h0⟩
    unfold selectColumnOf
    rw [n1]
    simp only [n3, Option.getD_none, List.drop_zero, List.take_length]
    refine mapM_only _ .keyError _ ?_ ⟨row, hm, ?_⟩
    · intro x _
      unfold Dict.getItem
      cases Dict.get? (dl1Cells x) name with
      | none => exact Or.inl rfl
      | some v => exact Or.inr ⟨v, rfl⟩
    · unfold Dict.getItem
      rw [h0]
  have hcol := hgen col ⟨row, hmem, by rw [get?_dl1Cells _ _ h1 h2, hnone]⟩
  unfold chargeSpectrum spectrumCharges
  have hpix : (∃ v, selectColumnOf dl1Cells r "data" "pixel" none none = .ok v) ∨ selectColumnOf dl1Cells r "data" "pixel" none none = .error .keyError := by
    by_cases hall : ∃ row ∈ nd.rows, Dict.get? (dl1Cells row) "pixel" = none
    · exact Or.inr (hgen _ hall)
    · left
      push Not at hall
      unfold selectColumnOf
      rw [n1]
      simp only [n3, Option.getD_none, List.drop_zero, List.take_length]
      generalize nd.rows = l at hall
      induction l with
      | nil => exact ⟨[], rfl⟩
      | cons x l ih =>
        obtain ⟨v, hv⟩ := ih fun y hy => hall y (by simp [hy])
        obtain ⟨c, hc⟩ := Option.ne_none_iff_exists'.1 (hall x (by simp))
        refine ⟨c :: v, ?_⟩
        rw [List.mapM_cons, hv]
        unfold Dict.getItem
        rw [hc]
        rfl
  rcases hpix with ⟨v, hv⟩ | hv
  · rw [hv, hcol]
  · rw [hv]

/-- the extracted run of `Verif.Props.DefaultRun`: two pixels, two events; the curve of pixel 1 and that of a pixel the camera does not have -/
example : ∃ (d : Dl1Input Nat Unit) (p1 p7 : ChargeSpectrum) (a b : ℚ) (qss : List (List ℚ)) (qs : List ℚ),
    chargeSpectrum d.reader "charge_cc" 1 = .ok p1 ∧ chargeSpectrum d.reader "charge_cc" 7 = .ok p7 ∧ qss.length = 2 ∧ qss[1]? = some qs ∧ qs.length = 2 ∧
      DensityOf 1000 a b qss.flatten p1.all ∧ DensityOf 1000 a b qs p1.pixel ∧ ∀ height ∈ p7.pixel, height = none := by
  obtain ⟨d, hd, hi, -⟩ := pulseRun_file
  obtain ⟨mapping, hm⟩ := hd.made
  have key := C160_curves d.file 2 d.ids mapping hm hd.increasing hd.small hd.some (by decide) (by decide) d.reader hd.opened "charge_cc" (by decide) (by decide) hd.numbers
  obtain ⟨p1, qss, lo, hi', a, b, k1, k2, k3, -, -, -, -, -, -, k4, k5, -⟩ := key 1
  obtain ⟨p7, _, _, _, _, _, j1, -, -, -, -, -, -, -, -, -, -, j2⟩ := key 7
  obtain ⟨qs, q1, q2⟩ := k3 1 (by decide)
  exact ⟨d, p1, p7, a, b, qss, qs, k1, j1, k2, q1, by rw [q2.1, hi]; rfl, k4, k5 1 (by decide) rfl qs q1, j2 (by decide)⟩

/-- and a column it does not have -/
example : ∃ d : Dl1Input Nat Unit, d.ids = [0, 2] ∧ chargeSpectrum d.reader "charge" 0 = .error .keyError := by
  obtain ⟨d, hd, hi, hno⟩ := pulseRun_file
  obtain ⟨mapping, hm⟩ := hd.made
  exact ⟨d, hi, C160_missing d.file 2 d.ids mapping hm hd.increasing hd.small hd.some (by decide) (by decide) d.reader hd.opened "charge" (by decide) (by decide) hno 0⟩

end Verif.Props
