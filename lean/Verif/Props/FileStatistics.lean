import Verif.Model.FileStatistics
import Verif.Props.Dl1
import Verif.Props.Hdf5
import Verif.Props.ModuleTables
import Verif.Props.RunningStats

/-!
# C185: module statistics of a DL1 file

From the events of the raw file to the means printed by the example: production (C25), the reader (C20, C26) and the running statistics (C135).
-/

namespace Verif.Props

open Verif.Py Verif.Model Verif.Spec Verif.Lemmas

variable {τ ε β ν S : Type}

/-- specification: the charges extracted for the pixels of module `k` – pixels `64 k` to `64 k + 63` – in all processed events -/
def moduleCharges (q : β → ℚ) (vss : List (List β)) (k : Nat) : List ℚ := vss.flatMap fun vs => ((vs.drop (64 * k)).take 64).map q

/-- the frame of one event -/
def eventCharges (f : β → Option ℚ) (vs : List β) : List PixelCharge := vs.mapIdx fun p v => ⟨p, f v⟩

theorem frameColumns_rows (charge : β → Option ℚ) (castVals : β → β) (iev : Nat) (vs : List β) :
    frameColumns charge (eventRows castVals iev vs) = .ok (eventCharges (charge ∘ castVals) vs) := by
  unfold frameColumns
  rw [mapM_ok _ _ (fun row : DRow β => ⟨(row.pixel.getD 0 : Nat), charge row.vals⟩)]
  · congr 1
    unfold eventRows eventCharges
    apply List.ext_getElem?
    intro i
    simp only [List.getElem?_map, List.getElem?_mapIdx, Option.map_map]
    rfl
  · intro row hrow
    unfold eventRows at hrow
    obtain ⟨i, hi, rfl⟩ := List.mem_mapIdx.1 hrow
    rfl

theorem frameColumns_flatten (charge : β → Option ℚ) (castVals : β → β) (l : List (Nat × List β)) :
    frameColumns charge (l.map fun p => eventRows castVals p.1 p.2).flatten = .ok (l.map fun p => eventCharges (charge ∘ castVals) p.2).flatten := by
  induction l with
  | nil => rfl
  | cons p l ih =>
    simp only [List.map_cons, List.flatten_cons]
    have h1 := frameColumns_rows charge castVals p.1 p.2
    unfold frameColumns at ih h1 ⊢
    rw [List.mapM_append, h1, ih]
    rfl

/-- the charges of a module in one event -/
theorem frame_module (q : β → ℚ) (f : β → Option ℚ) (vs : List β) (hf : ∀ v ∈ vs, f v = some (q v)) (k : Nat) :
    tmCharges (eventCharges f vs) k = ((vs.drop (64 * k)).take 64).map q := by
  have key : ∀ (vs : List β) (o : Nat), (∀ v ∈ vs, f v = some (q v)) →
      tmCharges (vs.mapIdx fun p v => (⟨((o + p : Nat) : Int), f v⟩ : PixelCharge)) k
        = ((vs.drop (64 * k - o)).take (64 * (k + 1) - max o (64 * k))).map q := by
    intro vs
    induction vs with
    | nil => intro o _; simp [tmCharges]
    | cons v vs ih =>
      intro o hv
      have h1 := ih (o + 1) fun w hw => hv w (by simp [hw])
      have h2 : (fun p (v : β) => (⟨((o + (p + 1) : Nat) : Int), f v⟩ : PixelCharge)) = fun p v => ⟨((o + 1 + p : Nat) : Int), f v⟩ := by
        funext p v
        rw [show o + (p + 1) = o + 1 + p from by omega]
      rw [List.mapIdx_cons, h2]
      unfold tmCharges at h1 ⊢
      rw [List.filter_cons]
      by_cases hk : ((o + 0 : Nat) : Int) / 64 = k
      · rw [if_pos (by simpa using hk), List.filterMap_cons, hv v (by simp)]
        simp only
        rw [h1, show 64 * k - o = 0 from by omega, show 64 * k - (o + 1) = 0 from by omega,
          show 64 * (k + 1) - max o (64 * k) = (64 * (k + 1) - max (o + 1) (64 * k)) + 1 from by omega]
        simp
      · rw [if_neg (by simpa using hk), h1]
        by_cases ho : o < 64 * k
        · rw [show 64 * k - o = (64 * k - (o + 1)) + 1 from by omega, show max o (64 * k) = max (o + 1) (64 * k) from by omega]
          simp
        · rw [show 64 * (k + 1) - max (o + 1) (64 * k) = 0 from by omega, show 64 * (k + 1) - max o (64 * k) = 0 from by omega]
          simp
  have := key vs 0 hf
  simp only [Nat.zero_add, Nat.sub_zero, Nat.zero_max] at this
  unfold eventCharges
  rw [this, show 64 * (k + 1) - 64 * k = 64 from by omega]

theorem tmCharges_append (a b : List PixelCharge) (k : Int) : tmCharges (a ++ b) k = tmCharges a k ++ tmCharges b k := by
  unfold tmCharges
  rw [List.filter_append, List.filterMap_append]

theorem frames_charges (q : β → ℚ) (f : β → Option ℚ) (vss : List (List β)) (hf : ∀ vs ∈ vss, ∀ v ∈ vs, f v = some (q v)) (k : Nat) :
    tmCharges (vss.map (eventCharges f)).flatten k = moduleCharges q vss k := by
  induction vss with
  | nil => rfl
  | cons vs vss ih =>
    rw [List.map_cons, List.flatten_cons, tmCharges_append, ih fun ws hw => hf ws (by simp [hw]), frame_module q f vs (hf vs (by simp))]
    rfl

theorem moduleCharges_perm (q : β → ℚ) (a b : List (List β)) (h : a.Perm b) (k : Nat) : (moduleCharges q a k).Perm (moduleCharges q b k) :=
  h.flatMap_right _

theorem moduleCharges_length (q : β → ℚ) (vss : List (List β)) (n k : Nat) (h : ∀ vs ∈ vss, vs.length = n) :
    (moduleCharges q vss k).length = vss.length * min 64 (n - 64 * k) := by
  induction vss with
  | nil => simp [moduleCharges]
  | cons vs vss ih =>
    have := ih fun ws hw => h ws (by simp [hw])
    unfold moduleCharges at this ⊢
    rw [List.flatMap_cons, List.length_append, this, List.length_map, List.length_take, List.length_drop, h vs (by simp), List.length_cons, Nat.succ_mul vss.length]
    omega

theorem meanOf_perm (a b : List ℚ) (h : a.Perm b) : meanOf a = meanOf b := by
  unfold meanOf
  rw [h.sum_eq, h.length_eq]

theorem populationVariance_perm (a b : List ℚ) (h : a.Perm b) : populationVariance a = populationVariance b := by
  unfold populationVariance
  rw [meanOf_perm a b h, (h.map _).sum_eq, h.length_eq]

/-- modules with data -/
theorem frames_modules (f : β → Option ℚ) (vss : List (List β)) (n : Nat) (h : ∀ vs ∈ vss, vs.length = n) (hn : 1 ≤ n) (hne : vss ≠ []) (k : Int) :
    ofModule (vss.map (eventCharges f)) k ≠ [] ↔ 0 ≤ k ∧ k < ((n + 63) / 64 : Nat) := by
  unfold ofModule
  have hmem : ∀ l : List PixelCharge, l ≠ [] ↔ ∃ e, e ∈ l := fun l => ⟨List.exists_mem_of_ne_nil l, fun ⟨_, h⟩ => List.ne_nil_of_mem h⟩
  rw [hmem]
  simp only [List.mem_filter, List.mem_flatten, List.mem_map, decide_eq_true_eq]
  constructor
  · rintro ⟨e, ⟨_, ⟨vs, hvs, rfl⟩, he⟩, h1, h2⟩
    unfold eventCharges at he
    obtain ⟨i, hi, rfl⟩ := List.mem_mapIdx.1 he
    have := h vs hvs
    simp only at h1 h2
    omega
  · rintro ⟨h1, h2⟩
    obtain ⟨vs, hvs⟩ := List.exists_mem_of_ne_nil vss hne
    have hl := h vs hvs
    have hi : 64 * k.toNat < vs.length := by omega
    refine ⟨⟨((64 * k.toNat : Nat) : Int), f vs[64 * k.toNat]⟩, ⟨_, ⟨vs, hvs, rfl⟩, ?_⟩, ?_, ?_⟩
    · exact List.mem_mapIdx.2 ⟨64 * k.toNat, hi, rfl⟩
    · simp only; omega
    · simp only; omega

/-- the running statistics beside pandas', for frames of one number of pixels -/
theorem frames_statistics (mem : List ModuleSums → Nat) (q : β → ℚ) (f : β → Option ℚ) (vss : List (List β)) (n : Nat) (h : ∀ vs ∈ vss, vs.length = n)
    (hn : 1 ≤ n) (hne : vss ≠ []) (hf : ∀ vs ∈ vss, ∀ v ∈ vs, f v = some (q v)) :
    ∃ rows, runningTable mem (vss.map (eventCharges f)) = .ok rows ∧
      (comparison (vss.map (eventCharges f)).flatten rows).length = (n + 63) / 64 ∧
      ∀ (k : Nat) c, (comparison (vss.map (eventCharges f)).flatten rows)[k]? = some c →
        c.1.tm = k ∧ c.1.n = vss.length * min 64 (n - 64 * k) ∧ c.1.mean = meanOf (moduleCharges q vss k) ∧
        c.1.variance = populationVariance (moduleCharges q vss k) ∧ c.2.1 = some c.1.mean ∧
        (c.1.n = 1 → c.2.2 = none) ∧ (2 ≤ c.1.n → ∃ v, c.2.2 = some v ∧ v * (c.1.n - 1) = c.1.variance * c.1.n) := by
  have hne' : vss.map (eventCharges f) ≠ [] := by simpa using hne
  have hg : NoGaps (vss.map (eventCharges f)) := by
    intro e he
    obtain ⟨_, hm, he⟩ := List.mem_flatten.1 he
    obtain ⟨vs, hvs, rfl⟩ := List.mem_map.1 hm
    unfold eventCharges at he
    obtain ⟨i, hi, rfl⟩ := List.mem_mapIdx.1 he
    simp only
    rw [hf vs hvs _ (List.getElem_mem hi)]
    simp
  obtain ⟨rows, hr, hp, hk, hrow⟩ := C135_table mem (vss.map (eventCharges f)) hne'
  have hall := frames_modules f vss n h hn hne
  obtain ⟨p1, p2, p3⟩ := C135_partial mem _ hg _ hall rows hr
  have htms : rows.map RunningRow.tm = (List.range ((n + 63) / 64)).map (fun i : Nat => (i : Int)) := by
    refine List.Pairwise.eq_of_mem_iff (r := (· < ·)) hp ?_ fun k => ?_
    · rw [List.pairwise_map]
      exact List.pairwise_lt_range.imp fun h => by exact_mod_cast h
    · rw [hk, hall]
      simp only [List.mem_map, List.mem_range]
      constructor
      · rintro ⟨h0, h1⟩; exact ⟨k.toNat, by omega, by omega⟩
      · rintro ⟨i, hi, rfl⟩; omega
  refine ⟨rows, hr, ?_, fun k c hc => ?_⟩
  · rw [← p1, ← congrArg List.length p2, List.length_map]
  · have hck : rows[k]? = some c.1 := by
      rw [← p2, List.getElem?_map, hc]; rfl
    have hmem := List.mem_of_getElem? hck
    have htm : c.1.tm = k := by
      have := congrArg (fun l => l[k]?) htms
      simp only [List.getElem?_map, hck, Option.map_some] at this
      by_cases hi : k < (n + 63) / 64
      · rw [List.getElem?_range hi] at this; simpa using this
      · rw [List.getElem?_eq_none (by simpa using hi)] at this; cases this
    obtain ⟨e1, e2, -⟩ := C135_statistics mem _ hne' hg rows hr c.1 hmem
    obtain ⟨-, -, h3, -, -⟩ := hrow c.1 hmem
    obtain ⟨g1, g2, g3⟩ := p3 c (List.mem_of_getElem? hc)
    rw [htm, frames_charges q f vss hf] at e1 e2
    refine ⟨htm, ?_, e1, e2, g1, g2, g3⟩
    rw [h3, htm, ← moduleCharges_length q vss n k h, ← frames_charges q f vss hf, ← charges_of _ hg, List.length_map]

/-- what is needed of a produced file: the frames of its events, in some order, and the whole table if it is not too large -/
theorem produced_statistics [DecidableEq ν] (mem : List (DRow β) → Nat) (castVals : β → β) (rd : RawReader τ ε β ν)
    (x : Extractor S τ ε β ν) (enc : Option τ → ν) (order : List String) (h : (dl1Calls rd x enc).2 = none)
    (ho : IsOrder (dl1Calls rd x enc).1 order) (hm : (Dict.keys rd.otherMeta).Nodup)
    (hid : ((goodEvents rd.events).map Event.iev).Nodup) (hb : ∀ e ∈ goodEvents rd.events, e.iev < 2 ^ 32)
    (hp : 1 ≤ rd.nPixels) (hp' : rd.nPixels ≤ 2 ^ 32) (hne : goodEvents rd.events ≠ []) (hmem : ∀ df, df ≠ [] → 0 < mem df)
    (charge : β → Option ℚ) :
    ∃ (s : Store (DRow β) ν) (r : HReader (DRow β) ν) (vss : List (List β)) (size : Int) (stored : List (List β)) (blocks : List (List (DRow β))),
      writeDl1File mem castVals rd x enc order = (.ok s, none) ∧ openReader s = .ok r ∧
      extractAll x x.init (goodEvents rd.events) = .ok vss ∧ vss.length = (goodEvents rd.events).length ∧ (∀ vs ∈ stored, vs.length = rd.nPixels) ∧
      fileField s "data" "metadata" "n_bytes" = some (.int size) ∧
      (∀ b : Nat, (∀ df, df ≠ [] → b ≤ mem df) → b ≤ size) ∧
      stored.Perm vss ∧ stored ≠ [] ∧ iterateOverEvents r = .ok blocks ∧
      blocks.mapM (frameColumns charge) = .ok (stored.map (eventCharges (charge ∘ castVals))) ∧
      (size ≤ 8000000000 → tableOfFile charge r = .ok (stored.map (eventCharges (charge ∘ castVals))).flatten) ∧
      (8000000000 < size → tableOfFile charge r = .error .memoryError) := by
  obtain ⟨s, st, vss, hf⟩ := dl1_file mem castVals rd x enc order h ho
  obtain ⟨r, hr⟩ := hf.opens.2 fun _ => hne
  obtain ⟨l, hl1, hl2, -⟩ := hf.table hid hb hp'
  have hbf := hf.blockFile r hr hm hne hp l hl1 hl2
  obtain ⟨nd, n1, n2, n3⟩ := hbf.node
  obtain ⟨blocks, b1, b2, b3, b4, -⟩ := C26_iteration r nd _ rd.nPixels n1 n3 hbf.nEvents hbf.nPixels hp
    (by rw [n2]; exact length_flatten_blocks _ _ hbf.size)
  have heq : blocks = l.map fun p => eventRows castVals p.1 p.2 := by
    apply List.ext_getElem b3
    intro i i1 i2
    rw [← drop_take_flatten rd.nPixels blocks b4 i i1, ← drop_take_flatten rd.nPixels _ hbf.size i i2, b2, n2]
  -- the events in the order of the file
  have hperm : (l.map Prod.snd).Perm vss := by
    have := hl1.map Prod.snd
    rw [List.map_map, show (Prod.snd ∘ fun p : Event τ ε × List β => (p.1.iev, p.2)) = Prod.snd from rfl,
      List.map_snd_zip (by rw [hf.len])] at this
    exact this
  have hw : ∀ vs ∈ l.map Prod.snd, vs.length = rd.nPixels := fun vs hv => hf.width vs (hperm.mem_iff.1 hv)
  have hlne : l.map Prod.snd ≠ [] := by
    intro h0
    rw [h0] at hperm
    have := hperm.length_eq
    rw [hf.len] at this
    exact hne (List.length_eq_zero_iff.1 this.symm)
  have hframes : (l.map Prod.snd).map (eventCharges (charge ∘ castVals)) = l.map fun p => eventCharges (charge ∘ castVals) p.2 := by
    rw [List.map_map]; rfl
  have htables : blocks.mapM (frameColumns charge) = .ok ((l.map Prod.snd).map (eventCharges (charge ∘ castVals))) := by
    rw [heq, hframes]
    clear * -
    induction l with
    | nil => rfl
    | cons p l ih => rw [List.map_cons, List.mapM_cons, frameColumns_rows, ih]; rfl
  -- the recorded size
  have hrne : fileRows s "data" ≠ [] := by
    rw [hl2]
    obtain ⟨vs, hvs⟩ := List.exists_mem_of_ne_nil _ hlne
    obtain ⟨p, hpm, rfl⟩ := List.mem_map.1 hvs
    have hlen := hw p.2 hvs
    intro h0
    rw [List.flatten_eq_nil_iff] at h0
    have := h0 _ (List.mem_map.2 ⟨p, hpm, rfl⟩)
    unfold eventRows at this
    rw [← List.length_eq_zero_iff, List.length_mapIdx] at this
    omega
  obtain ⟨size, hsize, hpos⟩ : ∃ size : Int, fileField s "data" "metadata" "n_bytes" = some (.int size) ∧
      ∀ b : Nat, (∀ df, df ≠ [] → b ≤ mem df) → b ≤ size := by
    obtain ⟨groups, -, g2, g3⟩ := hf.session.appended "data" (calls_not_written_data rd x enc st _)
    refine ⟨_, g3 ?_, fun b hbm => ?_⟩
    · refine (calls_isData rd x enc st _ "data").2 ⟨fun h0 => ?_, Or.inl rfl⟩
      rcases List.zip_eq_nil_iff.1 h0 with h0 | h0
      · exact hne h0
      · have := hf.len
        rw [h0] at this
        exact hne (List.length_eq_zero_iff.1 this.symm)
    · have : ∃ g ∈ groups, dl1Prep castVals g.flatten ≠ [] := by
        by_contra hcon
        push Not at hcon
        apply hrne
        rw [g2, List.flatten_eq_nil_iff]
        intro b hb
        obtain ⟨g, hg, rfl⟩ := List.mem_map.1 hb
        exact hcon g hg
      obtain ⟨g, hg, hgne⟩ := this
      have h1 := hbm _ hgne
      have h2 := List.single_le_sum (l := groups.map fun g => mem (dl1Prep castVals g.flatten)) (fun _ _ => Nat.zero_le _) _
        (List.mem_map.2 ⟨g, hg, rfl⟩)
      exact_mod_cast le_trans h1 h2
  have hread := (C20_read s hf.session.nodup r hr "data" false).2.1 size ⟨by decide, _, hsize, by
    intro h0; injection h0 with h0; have := hpos 1 hmem; omega⟩ hsize
  refine ⟨s, r, vss, size, l.map Prod.snd, blocks, hf.file, hr, hf.ext, hf.len, hw, hsize, hpos, hperm, hlne, b1, htables, fun hs => ?_, fun hs => ?_⟩
  · unfold tableOfFile
    rw [hread.2 (by rintro ⟨h1, -⟩; omega), hl2]
    simp only
    rw [frameColumns_flatten, hframes]
  · unfold tableOfFile
    rw [hread.1 ⟨hs, rfl⟩]

/-- **C185**, missing from the full claim: files of more than 8 GB. A file was produced from at least one processed event, each with its own number.
If the size recorded for it is at most 8 GB, the example prints one line per module of the camera – the last may have fewer than 64 pixels –, in
order: the number of charges of the module, the mean and the population variance of the charges extracted for its pixels in all processed events,
whatever order they are stored in and whatever memory the frames take; beside it the mean of pandas, which is the same, and the variance of pandas,
which is divided by one less. A larger file raises `MemoryError` and nothing is printed. -/
theorem C185_partial [DecidableEq ν] (mem : List (DRow β) → Nat) (castVals : β → β) (rd : RawReader τ ε β ν)
    (x : Extractor S τ ε β ν) (enc : Option τ → ν) (order : List String) (h : (dl1Calls rd x enc).2 = none)
    (ho : IsOrder (dl1Calls rd x enc).1 order) (hm : (Dict.keys rd.otherMeta).Nodup)
    (hid : ((goodEvents rd.events).map Event.iev).Nodup) (hb : ∀ e ∈ goodEvents rd.events, e.iev < 2 ^ 32)
    (hp : 1 ≤ rd.nPixels) (hp' : rd.nPixels ≤ 2 ^ 32) (hne : goodEvents rd.events ≠ []) (hmem : ∀ df, df ≠ [] → 0 < mem df)
    (memS : List ModuleSums → Nat) (charge : β → Option ℚ) (q : β → ℚ)
    (hq : ∀ vss, extractAll x x.init (goodEvents rd.events) = .ok vss → ∀ vs ∈ vss, ∀ v ∈ vs, charge (castVals v) = some (q v)) :
    ∃ (s : Store (DRow β) ν) (r : HReader (DRow β) ν) (vss : List (List β)) (size : Int),
      writeDl1File mem castVals rd x enc order = (.ok s, none) ∧ openReader s = .ok r ∧
      extractAll x x.init (goodEvents rd.events) = .ok vss ∧ fileField s "data" "metadata" "n_bytes" = some (.int size) ∧
      (∀ b : Nat, (∀ df, df ≠ [] → b ≤ mem df) → b ≤ size) ∧
      (size ≤ 8000000000 → ∃ printed, runningMeanOfFile memS charge r = .ok printed ∧ printed.length = (rd.nPixels + 63) / 64 ∧
        ∀ (k : Nat) c, printed[k]? = some c →
          c.1.tm = k ∧ c.1.n = (goodEvents rd.events).length * min 64 (rd.nPixels - 64 * k) ∧
          c.1.mean = meanOf (moduleCharges q vss k) ∧ c.1.variance = populationVariance (moduleCharges q vss k) ∧
          c.2.1 = some (meanOf (moduleCharges q vss k)) ∧
          (c.1.n = 1 → c.2.2 = none) ∧ (2 ≤ c.1.n → ∃ v, c.2.2 = some v ∧ v * (c.1.n - 1) = c.1.variance * c.1.n)) ∧
      (8000000000 < size → runningMeanOfFile memS charge r = .error .memoryError) := by
  obtain ⟨s, r, vss, size, stored, blocks, h1, h2, h3, h4, h5, h6, h7, hperm, hne', b1, b2, t1, t2⟩ :=
    produced_statistics mem castVals rd x enc order h ho hm hid hb hp hp' hne hmem charge
  have hq' := hq vss h3
  obtain ⟨rows, e1, e2, e3⟩ := frames_statistics memS q (charge ∘ castVals) stored rd.nPixels h5 hp hne'
    fun vs hv v hvv => hq' vs (hperm.mem_iff.1 hv) v hvv
  refine ⟨s, r, vss, size, h1, h2, h3, h6, h7, fun hs => ⟨_, ?_, e2, fun k c hc => ?_⟩, fun hs => ?_⟩
  · unfold runningMeanOfFile
    rw [b1]
    simp only
    rw [b2]
    simp only
    rw [e1]
    simp only
    rw [t1 hs]
  · obtain ⟨f1, f2, f3, f4, f5, f6, f7⟩ := e3 k c hc
    have hpk := moduleCharges_perm q _ _ hperm k
    rw [meanOf_perm _ _ hpk] at f3
    rw [populationVariance_perm _ _ hpk] at f4
    rw [hperm.length_eq, h4] at f2
    exact ⟨f1, f2, f3, f4, by rw [f5, f3], f6, f7⟩
  · unfold runningMeanOfFile
    rw [b1]
    simp only
    rw [b2]
    simp only
    rw [e1]
    simp only
    rw [t2 hs]

/-- **C185**, the whole table: of the same file, what the other functions of the example calculate on the loaded table – the mean of all charges
(`get_numpy_mean`), and the mean charge of each module (`get_mean_per_tm`) – is the mean over the charges extracted for the processed events. -/
theorem C185_table_partial [DecidableEq ν] (mem : List (DRow β) → Nat) (castVals : β → β) (rd : RawReader τ ε β ν)
    (x : Extractor S τ ε β ν) (enc : Option τ → ν) (order : List String) (h : (dl1Calls rd x enc).2 = none)
    (ho : IsOrder (dl1Calls rd x enc).1 order) (hm : (Dict.keys rd.otherMeta).Nodup)
    (hid : ((goodEvents rd.events).map Event.iev).Nodup) (hb : ∀ e ∈ goodEvents rd.events, e.iev < 2 ^ 32)
    (hp : 1 ≤ rd.nPixels) (hp' : rd.nPixels ≤ 2 ^ 32) (hne : goodEvents rd.events ≠ []) (hmem : ∀ df, df ≠ [] → 0 < mem df)
    (charge : β → Option ℚ) (q : β → ℚ)
    (hq : ∀ vss, extractAll x x.init (goodEvents rd.events) = .ok vss → ∀ vs ∈ vss, ∀ v ∈ vs, charge (castVals v) = some (q v)) :
    ∃ (s : Store (DRow β) ν) (r : HReader (DRow β) ν) (vss : List (List β)) (size : Int),
      writeDl1File mem castVals rd x enc order = (.ok s, none) ∧ openReader s = .ok r ∧
      extractAll x x.init (goodEvents rd.events) = .ok vss ∧ fileField s "data" "metadata" "n_bytes" = some (.int size) ∧
      (size ≤ 8000000000 → ∃ table, tableOfFile charge r = .ok table ∧ tableMean table = some (meanOf (vss.flatten.map q)) ∧
        (meanPerTm table).map Prod.fst = (List.range ((rd.nPixels + 63) / 64)).map (fun i : Nat => (i : Int)) ∧
        ∀ m ∈ meanPerTm table, m.2.2 = some (meanOf (moduleCharges q vss m.1.toNat))) ∧
      (8000000000 < size → tableOfFile charge r = .error .memoryError) := by
  obtain ⟨s, r, vss, size, stored, blocks, h1, h2, h3, h4, h5, h6, -, hperm, hne', -, -, t1, t2⟩ :=
    produced_statistics mem castVals rd x enc order h ho hm hid hb hp hp' hne hmem charge
  have hq' := hq vss h3
  have hf : ∀ vs ∈ stored, ∀ v ∈ vs, (charge ∘ castVals) v = some (q v) := fun vs hv v hvv => hq' vs (hperm.mem_iff.1 hv) v hvv
  have hmods : ∀ k : Int, (∃ e ∈ (stored.map (eventCharges (charge ∘ castVals))).flatten, 64 * k ≤ e.pixel ∧ e.pixel < 64 * k + 64) ↔
      k ∈ (List.range ((rd.nPixels + 63) / 64)).map (fun i : Nat => (i : Int)) := by
    intro k
    have h0 := frames_modules (charge ∘ castVals) stored rd.nPixels h5 hp hne' k
    have h8 : (∃ e ∈ (stored.map (eventCharges (charge ∘ castVals))).flatten, 64 * k ≤ e.pixel ∧ e.pixel < 64 * k + 64) ↔
        ofModule (stored.map (eventCharges (charge ∘ castVals))) k ≠ [] := by
      unfold ofModule
      rw [Ne, List.filter_eq_nil_iff]
      push Not
      simp only [decide_eq_true_eq, show 64 * (k + 1) = 64 * k + 64 from by ring]
    rw [h8, h0]
    simp only [List.mem_map, List.mem_range]
    constructor
    · rintro ⟨h0, h1⟩; exact ⟨k.toNat, by omega, by omega⟩
    · rintro ⟨i, hi, rfl⟩; omega
  refine ⟨s, r, vss, size, h1, h2, h3, h6, fun hs => ⟨_, t1 hs, ?_, ?_, ?_⟩, t2⟩
  · have hall : ∀ vss : List (List β), (∀ vs ∈ vss, ∀ v ∈ vs, (charge ∘ castVals) v = some (q v)) →
        (vss.map (eventCharges (charge ∘ castVals))).flatten.filterMap PixelCharge.charge = vss.flatten.map q := by
      intro vss hv
      induction vss with
      | nil => rfl
      | cons vs vss ih =>
        rw [List.map_cons, List.flatten_cons, List.filterMap_append, ih fun ws hw => hv ws (by simp [hw]), List.flatten_cons, List.map_append]
        congr 1
        have hvs := hv vs (by simp)
        unfold eventCharges
        clear * - hvs
        induction vs using List.reverseRecOn with
        | nil => rfl
        | append_singleton vs v ih =>
          rw [List.mapIdx_append, List.filterMap_append, ih fun w hw => hvs w (by simp [hw]), List.map_append]
          congr 1
          have h1 : charge (castVals v) = some (q v) := hvs v (by simp)
          simp [h1]
    unfold tableMean pandasMean
    rw [hall stored hf]
    have hperm' : (stored.flatten.map q).Perm (vss.flatten.map q) := hperm.flatten.map q
    rw [if_neg, show (stored.flatten.map q).sum / ((stored.flatten.map q).length : ℚ) = meanOf (stored.flatten.map q) from rfl, meanOf_perm _ _ hperm']
    obtain ⟨vs, hvs⟩ := List.exists_mem_of_ne_nil _ hne'
    have hl := h5 vs hvs
    intro h0
    rw [List.map_eq_nil_iff, List.flatten_eq_nil_iff] at h0
    rw [h0 vs hvs] at hl
    simp at hl
    omega
  · obtain ⟨c1, c2, -⟩ := C183_modules (stored.map (eventCharges (charge ∘ castVals))).flatten
    refine List.Pairwise.eq_of_mem_iff (r := (· < ·)) c1 ?_ fun k => ?_
    · rw [List.pairwise_map]
      exact List.pairwise_lt_range.imp fun h => by exact_mod_cast h
    · rw [c2]
      exact hmods k
  · intro m hmm
    have hk : m.1 ∈ (meanPerTm (stored.map (eventCharges (charge ∘ castVals))).flatten).map Prod.fst := List.mem_map.2 ⟨m, hmm, rfl⟩
    rw [(C183_modules _).2.1, hmods] at hk
    obtain ⟨i, hi, hmi⟩ := List.mem_map.1 hk
    rw [List.mem_range] at hi
    unfold meanPerTm at hmm
    obtain ⟨k, -, rfl⟩ := List.mem_map.1 hmm
    simp only at hmi ⊢
    subst hmi
    rw [frames_charges q _ stored hf, Int.toNat_natCast, ← meanOf_perm _ _ (moduleCharges_perm q _ _ hperm i)]
    unfold pandasMean
    rw [if_neg]
    · rfl
    · rw [← List.length_eq_zero_iff, moduleCharges_length q stored _ i h5]
      have h8 := List.length_pos_iff.2 hne'
      have h9 : 0 < min 64 (rd.nPixels - 64 * i) := by omega
      exact Nat.pos_iff_ne_zero.1 (Nat.mul_pos h8 h9)

/-- **C185**, no event processed: the example raises `KeyError` -/
theorem C185_no_events [DecidableEq ν] (mem : List (DRow β) → Nat) (castVals : β → β) (rd : RawReader τ ε β ν)
    (x : Extractor S τ ε β ν) (enc : Option τ → ν) (order : List String) (h : (dl1Calls rd x enc).2 = none)
    (ho : IsOrder (dl1Calls rd x enc).1 order) (hm : (Dict.keys rd.otherMeta).Nodup) (hmc : rd.isMc = false) (hne : goodEvents rd.events = [])
    (memS : List ModuleSums → Nat) (charge : β → Option ℚ) :
    ∃ (s : Store (DRow β) ν) (r : HReader (DRow β) ν), writeDl1File mem castVals rd x enc order = (.ok s, none) ∧ openReader s = .ok r ∧
      runningMeanOfFile memS charge r = .error .keyError := by
  obtain ⟨s, st, vss, hf⟩ := dl1_file mem castVals rd x enc order h ho
  obtain ⟨r, hr⟩ := hf.opens.2 fun h0 => by rw [hmc] at h0; cases h0
  obtain ⟨i1, -⟩ := hf.metaInt r hr hm
  have hproc : st.processed = 0 := by
    have := hf.loop.processed
    simpa [hne, loopInit] using this
  refine ⟨s, r, hf.file, hr, ?_⟩
  unfold runningMeanOfFile iterateOverEvents
  rw [i1, hproc]
  rfl

/-! ### a case -/

/-- the three processed events of two pixels: charges 3, 7, 1009, 7, 2011, 7 -/
example :=
  C185_partial (fun df => 64 * df.length) id exReader exExtractor (fun _ => ()) ["data"] exReader_calls exReader_order (by decide) (by decide) (by decide)
    (by decide) (by decide) (by decide) (fun df h => by have := List.length_pos_iff.2 h; omega) (fun _ => 0) (fun n : Nat => some (n : ℚ)) (fun n : Nat => (n : ℚ))
    (fun _ _ _ _ _ _ => rfl)

example := C185_table_partial (fun df => 64 * df.length) id exReader exExtractor (fun _ => ()) ["data"] exReader_calls exReader_order (by decide) (by decide)
  (by decide) (by decide) (by decide) (by decide) (fun df h => by have := List.length_pos_iff.2 h; omega) (fun n : Nat => some (n : ℚ)) (fun n : Nat => (n : ℚ))
  (fun _ _ _ _ _ _ => rfl)

/-- a run of which no event is processed -/
def staleReader : RawReader Nat Unit Nat Unit := { exReader with events := [⟨5, true, false, 101, ()⟩, ⟨10, false, true, 103, ()⟩] }

example : ∃ (s : Store (DRow Nat) Unit) (r : HReader (DRow Nat) Unit),
    writeDl1File (fun df => 64 * df.length) id staleReader exExtractor (fun _ => ()) [] = (.ok s, none) ∧ openReader s = .ok r ∧
    runningMeanOfFile (fun _ => 0) (fun n : Nat => some (n : ℚ)) r = .error .keyError :=
  C185_no_events _ _ staleReader exExtractor _ [] rfl (by
    refine ⟨by decide, fun k => ?_⟩
    simp [IsData, IsAppended, dl1Calls, dl1Loop, dl1Step, staleReader, exReader, exExtractor, skipEvent, dl1Closing]) (by decide) rfl rfl _ _

/-- **C185 is false** of large files, the purpose of the running statistics: the example then loads the entire table, which raises `MemoryError`; nothing
is printed. Here the three events, with rows of 9 GB. -/
theorem C185_false : ∃ (s : Store (DRow Nat) Unit) (r : HReader (DRow Nat) Unit),
    writeDl1File (fun df => 9000000000 * df.length) id exReader exExtractor (fun _ => ()) ["data"] = (.ok s, none) ∧ openReader s = .ok r ∧
    runningMeanOfFile (fun _ => 0) (fun n : Nat => some (n : ℚ)) r = .error .memoryError := by
  obtain ⟨s, r, vss, size, h1, h2, -, -, h3, -, h4⟩ := C185_partial (fun df => 9000000000 * df.length) id exReader exExtractor (fun _ => ()) ["data"]
    exReader_calls exReader_order (by decide) (by decide) (by decide) (by decide) (by decide) (by decide)
    (fun df h => by have := List.length_pos_iff.2 h; omega) (fun _ => 0) (fun n : Nat => some (n : ℚ)) (fun n : Nat => (n : ℚ))
    (fun _ _ _ _ _ _ => rfl)
  have := h3 9000000000 fun df h => by have := List.length_pos_iff.2 h; omega
  exact ⟨s, r, h1, h2, h4 (by omega)⟩

end Verif.Props
