import Verif.Lemmas.Dl1
import Verif.Lemmas.Hdf5Session

namespace Verif.Lemmas

open Verif.Py Verif.Model Verif.Spec

variable {τ ε β ν S : Type}

theorem get?_reverse_nodup {α γ : Type} [DecidableEq α] (d : Dict α γ) (h : (Dict.keys d).Nodup) (k : α) :
    Dict.get? d.reverse k = Dict.get? d k := by
  have hr : (Dict.keys d.reverse).Nodup := by
    unfold Dict.keys at h ⊢
    rw [List.map_reverse, List.nodup_reverse]; exact h
  cases hg : Dict.get? d k with
  | none =>
    rw [Dict.get?_eq_none_iff] at hg ⊢
    unfold Dict.keys at hg ⊢
    simpa [List.map_reverse] using hg
  | some v =>
    exact Dict.get?_of_mem_nodup hr (List.mem_reverse.2 (Dict.mem_of_get? hg))

/-- the state the loop starts in -/
def loopInit (x : Extractor S τ ε β ν) : LoopState S τ β ν :=
  { processed := 0, skipped := 0, startTime := none, endTime := none, ext := x.init, ops := [] }

/-- the closing calls without the simulation header -/
def closingOps (rd : RawReader τ ε β ν) (x : Extractor S τ ε β ν) (enc : Option τ → ν) (st : LoopState S τ β ν) :
    List (Op (DRow β) ν) :=
  [.addMapping rd.mapping rd.mappingMeta,
     .addMetadata "data" "metadata" (dl1Meta rd enc st),
     .addMetadata "data" "config" x.config,
     .addMetadata "data" "sn" (tmDict rd.nModules rd.getSn),
     .addMetadata "data" "sipm_temp" (tmDict rd.nModules rd.getSipmTemp),
     .addMetadata "data" "primary_temp" (tmDict rd.nModules rd.getPrimaryTemp),
     .addMetadata "data" "dac" (tmSpDict rd.nModules rd.nSuperpixels rd.getSpDac),
     .addMetadata "data" "hvon" (tmSpDict rd.nModules rd.nSuperpixels rd.getSpHvon)]

/-- the header calls -/
def headerOps (rd : RawReader τ ε β ν) : List (Op (DRow β) ν) :=
  if rd.isMc then [.addMetadata "mc" "mcheader" (rd.mcheader.getD [])] else []

theorem dl1Closing_ok (rd : RawReader τ ε β ν) (x : Extractor S τ ε β ν) (enc : Option τ → ν) (st : LoopState S τ β ν)
    (ops : List (Op (DRow β) ν)) (h : dl1Closing rd x enc st = (ops, none)) :
    ops = closingOps rd x enc st ++ headerOps rd ∧ (rd.isMc = true → rd.mcheader.isSome) := by
  unfold dl1Closing at h
  simp only at h
  unfold headerOps
  split at h
  · rename_i hmc
    split at h
    · rename_i hd hh
      simp only [Prod.mk.injEq, and_true] at h
      rw [← h]
      simp [closingOps, hmc, hh]
    · simp at h
  · rename_i hmc
    simp only [Prod.mk.injEq, and_true] at h
    rw [← h]
    simp [closingOps, hmc]

theorem dl1Calls_ok (rd : RawReader τ ε β ν) (x : Extractor S τ ε β ν) (enc : Option τ → ν)
    (ops : List (Op (DRow β) ν)) (h : dl1Calls rd x enc = (ops, none)) :
    ∃ (st : LoopState S τ β ν) (vss : List (List β)), dl1Loop rd x (loopInit x) rd.events = (st, none) ∧
      LoopSpec rd x (loopInit x) rd.events st ∧
      extractAll x x.init (goodEvents rd.events) = .ok vss ∧ (∀ vs ∈ vss, vs.length = rd.nPixels) ∧
      vss.length = (goodEvents rd.events).length ∧
      ops = ((goodEvents rd.events).zip vss).flatMap (eventOps rd) ++ (closingOps rd x enc st ++ headerOps rd) ∧
      (rd.isMc = true → rd.mcheader.isSome) := by
  unfold dl1Calls at h
  change (match dl1Loop rd x (loopInit x) rd.events with
    | (st, some err) => (st.ops, some err)
    | (st, none) => (st.ops ++ (dl1Closing rd x enc st).1, (dl1Closing rd x enc st).2)) = _ at h
  split at h
  · simp at h
  · rename_i st hl
    have hs := dl1Loop_spec rd x rd.events _ st hl
    obtain ⟨vss, e1, e2, e3, e4⟩ := hs.ext
    simp only [Prod.mk.injEq] at h
    obtain ⟨c1, c2⟩ := dl1Closing_ok rd x enc st (dl1Closing rd x enc st).1 (Prod.ext rfl h.2)
    refine ⟨st, vss, hl, hs, e1, e2, e3, ?_, c2⟩
    rw [← h.1, e4, ← c1]
    simp [loopInit]

section calls

variable (rd : RawReader τ ε β ν) (x : Extractor S τ ε β ν) (enc : Option τ → ν) (st : LoopState S τ β ν)
  (l : List (Event τ ε × List β))

theorem mem_calls_append (df : List (DRow β)) (key : String)
    (h : Op.append df key ∈ l.flatMap (eventOps rd) ++ (closingOps rd x enc st ++ headerOps rd)) :
    (key = "data" ∨ (rd.isMc = true ∧ (key = "mc" ∨ key = "pointing"))) ∧ l ≠ [] := by
  rcases List.mem_append.1 h with h | h
  · obtain ⟨p, hp, h⟩ := List.mem_flatMap.1 h
    refine ⟨?_, by rintro rfl; simp at hp⟩
    unfold eventOps at h
    split at h
    · rename_i hmc; simp at h; grind
    · simp at h; grind
  · unfold closingOps headerOps at h
    split at h <;> simp at h

theorem not_mem_calls_write (df : List (DRow β)) (key : String) :
    ¬ Op.write key df ∈ l.flatMap (eventOps rd) ++ (closingOps rd x enc st ++ headerOps rd) := by
  intro h
  rcases List.mem_append.1 h with h | h
  · obtain ⟨p, hp, h⟩ := List.mem_flatMap.1 h
    unfold eventOps at h
    split at h <;> simp at h
  · unfold closingOps headerOps at h
    split at h <;> simp at h

theorem calls_unmixed : Unmixed (l.flatMap (eventOps rd) ++ (closingOps rd x enc st ++ headerOps rd)) := by
  rintro key ⟨⟨df, ha⟩, hw⟩
  have h1 := (mem_calls_append rd x enc st l df key ha).1
  rcases hw with ⟨df', hw⟩ | ⟨rfl, -⟩
  · exact not_mem_calls_write rd x enc st l df' key hw
  · simp at h1

theorem calls_not_written_data : ¬ IsWritten (l.flatMap (eventOps rd) ++ (closingOps rd x enc st ++ headerOps rd)) "data" := by
  rintro (⟨df', hw⟩ | ⟨h, -⟩)
  · exact not_mem_calls_write rd x enc st l df' _ hw
  · simp at h

theorem calls_isData (key : String) : IsData (l.flatMap (eventOps rd) ++ (closingOps rd x enc st ++ headerOps rd)) key ↔
    l ≠ [] ∧ (key = "data" ∨ (rd.isMc = true ∧ (key = "mc" ∨ key = "pointing"))) := by
  constructor
  · rintro (⟨df, h⟩ | ⟨df, h⟩)
    · exact (mem_calls_append rd x enc st l df key h).symm
    · exact absurd h (not_mem_calls_write rd x enc st l df key)
  · rintro ⟨h1, h2⟩
    cases l with
    | nil => simp at h1
    | cons p l =>
      left
      rcases h2 with rfl | ⟨hmc, rfl | rfl⟩
      · exact ⟨_, List.mem_append_left _ (List.mem_flatMap.2 ⟨p, by simp, by unfold eventOps; simp; rfl⟩)⟩
      · exact ⟨_, List.mem_append_left _ (List.mem_flatMap.2 ⟨p, by simp, by
          unfold eventOps; simp only [hmc, if_true]; simp; rfl⟩)⟩
      · exact ⟨_, List.mem_append_left _ (List.mem_flatMap.2 ⟨p, by simp, by
          unfold eventOps; simp only [hmc, if_true]; simp; rfl⟩)⟩

theorem calls_frames : framesAppended (l.flatMap (eventOps rd) ++ (closingOps rd x enc st ++ headerOps rd)) "data"
    = l.map fun p => eventFrame p.1.iev p.2 := by
  rw [framesAppended_append, framesAppended_events]
  have : framesAppended (closingOps rd x enc st ++ headerOps rd) "data" = [] := by
    unfold closingOps headerOps framesAppended
    split <;> simp
  rw [this, List.append_nil]

theorem lastField_events (key name f : String) (b : List (Op (DRow β) ν)) :
    lastField (l.flatMap (eventOps rd) ++ b) key name f = lastField b key name f := by
  unfold lastField
  rw [List.foldl_append]
  congr 1
  have : ∀ op ∈ l.flatMap (eventOps rd), ∃ df k, op = Op.append df k := by
    intro op hop
    obtain ⟨p, hp, h⟩ := List.mem_flatMap.1 hop
    unfold eventOps at h
    split at h <;> simp at h <;> grind
  generalize l.flatMap (eventOps rd) = ops at this
  induction ops with
  | nil => rfl
  | cons op ops ih =>
    obtain ⟨df, k, rfl⟩ := this op (by simp)
    rw [List.foldl_cons]
    exact ih fun o ho => this o (by simp [ho])

/-- the dictionaries attached to `data` -/
def dataDict (name : String) : Option (MetaDict ν) :=
  if name = "metadata" then some (dl1Meta rd enc st) else
  if name = "config" then some x.config else
  if name = "sn" then some (tmDict rd.nModules rd.getSn) else
  if name = "sipm_temp" then some (tmDict rd.nModules rd.getSipmTemp) else
  if name = "primary_temp" then some (tmDict rd.nModules rd.getPrimaryTemp) else
  if name = "dac" then some (tmSpDict rd.nModules rd.nSuperpixels rd.getSpDac) else
  if name = "hvon" then some (tmSpDict rd.nModules rd.nSuperpixels rd.getSpHvon) else none

theorem lastField_data (name f : String) (d : MetaDict ν) (h : dataDict rd x enc st name = some d) :
    lastField (l.flatMap (eventOps rd) ++ (closingOps rd x enc st ++ headerOps rd)) "data" name f
      = Dict.get? d.reverse f := by
  rw [lastField_events]
  unfold dataDict at h
  unfold lastField closingOps headerOps
  by_cases hmc : rd.isMc
  all_goals
    simp only [hmc, if_true, Bool.false_eq_true, if_false]
    split at h
    · rename_i hn; subst hn; simp at h; subst h; simp
    split at h
    · rename_i hn; subst hn; simp at h; subst h; simp
    split at h
    · rename_i hn; subst hn; simp at h; subst h; simp
    split at h
    · rename_i hn; subst hn; simp at h; subst h; simp
    split at h
    · rename_i hn; subst hn; simp at h; subst h; simp
    split at h
    · rename_i hn; subst hn; simp at h; subst h; simp
    split at h
    · rename_i hn; subst hn; simp at h; subst h; simp
    · simp at h

theorem hasMeta_data (name : String) (d : MetaDict ν) (h : dataDict rd x enc st name = some d) :
    HasMeta (l.flatMap (eventOps rd) ++ (closingOps rd x enc st ++ headerOps rd)) "data" name := by
  unfold dataDict at h
  unfold HasMeta closingOps
  split at h
  · rename_i hn; subst hn; exact ⟨by simp, by simp, dl1Meta rd enc st, by simp⟩
  split at h
  · rename_i hn; subst hn; exact ⟨by simp, by simp, x.config, by simp⟩
  split at h
  · rename_i hn; subst hn; exact ⟨by simp, by simp, tmDict rd.nModules rd.getSn, by simp⟩
  split at h
  · rename_i hn; subst hn; exact ⟨by simp, by simp, tmDict rd.nModules rd.getSipmTemp, by simp⟩
  split at h
  · rename_i hn; subst hn; exact ⟨by simp, by simp, tmDict rd.nModules rd.getPrimaryTemp, by simp⟩
  split at h
  · rename_i hn; subst hn; exact ⟨by simp, by simp, tmSpDict rd.nModules rd.nSuperpixels rd.getSpDac, by simp⟩
  split at h
  · rename_i hn; subst hn; exact ⟨by simp, by simp, tmSpDict rd.nModules rd.nSuperpixels rd.getSpHvon, by simp⟩
  · simp at h

theorem hasMeta_key (key name : String)
    (h : HasMeta (l.flatMap (eventOps rd) ++ (closingOps rd x enc st ++ headerOps rd)) key name) :
    key = "data" ∨ (rd.isMc = true ∧ key = "mc" ∧ name = "mcheader") := by
  obtain ⟨-, -, kv, h⟩ := h
  rcases List.mem_append.1 h with h | h
  · obtain ⟨p, hp, h⟩ := List.mem_flatMap.1 h
    unfold eventOps at h
    split at h <;> simp at h
  · unfold closingOps headerOps at h
    split at h
    · rename_i hmc; simp at h; grind
    · simp at h; grind

end calls

/-! ### reading back -/

theorem nodup_foldl_set {α : Type} (g : α → String) (v : α → MetaVal ν) (l : List α) (d : MetaDict ν)
    (h : (Dict.keys d).Nodup) : (Dict.keys (l.foldl (fun d a => Dict.set d (g a) (v a)) d)).Nodup := by
  induction l generalizing d with
  | nil => exact h
  | cons a l ih => exact ih _ (Dict.nodup_keys_set _ _ _ h)

theorem get?_foldl_set {α : Type} (g : α → String) (v : α → MetaVal ν) (l : List α) (d : MetaDict ν)
    (hinj : ∀ a ∈ l, ∀ b ∈ l, g a = g b → a = b) (a : α) (ha : a ∈ l) :
    Dict.get? (l.foldl (fun d a => Dict.set d (g a) (v a)) d) (g a) = some (v a) := by
  induction l using List.reverseRecOn with
  | nil => simp at ha
  | append_singleton l b ih =>
    rw [List.foldl_append]
    simp only [List.foldl_cons, List.foldl_nil]
    by_cases hab : g a = g b
    · have := hinj a ha b (by simp) hab
      subst this
      exact Dict.get?_set_self _ _ _
    · rw [Dict.get?_set_ne _ _ (Ne.symm hab)]
      refine ih (fun x hx y hy => hinj x (by simp [hx]) y (by simp [hy])) ?_
      rcases List.mem_append.1 ha with h | h
      · exact h
      · simp at h; subst h; exact absurd rfl hab

theorem get?_foldl_set_none {α : Type} (g : α → String) (v : α → MetaVal ν) (l : List α) (d : MetaDict ν) (k : String)
    (hk : ∀ a ∈ l, g a ≠ k) :
    Dict.get? (l.foldl (fun d a => Dict.set d (g a) (v a)) d) k = Dict.get? d k := by
  induction l generalizing d with
  | nil => rfl
  | cons a l ih =>
    simp only [List.foldl_cons]
    rw [ih _ (fun b hb => hk b (by simp [hb])), Dict.get?_set_ne _ _ (hk a (by simp))]

/-- the nested loop as one loop over pairs -/
theorem tmSpDict_eq (n m : Nat) (get : Nat → Nat → MetaVal ν) :
    tmSpDict n m get = (((List.range n).flatMap fun tm => (List.range m).map fun sp => (tm, sp))).foldl
      (fun d p => Dict.set d (tmSpKey p.1 p.2) (get p.1 p.2)) [] := by
  unfold tmSpDict
  generalize ([] : MetaDict ν) = d
  generalize List.range n = l
  induction l generalizing d with
  | nil => rfl
  | cons a l ih =>
    rw [List.foldl_cons, ih, List.flatMap_cons, List.foldl_append, List.foldl_map]

theorem tmKey_inj {a b : Nat} (h : tmKey a = tmKey b) : a = b := by
  unfold tmKey pad2 at h
  have := congrArg String.toList h
  simp at this
  exact decimalPad_injective this

theorem takeWhile_digits (ds rest : List Char) (c : Char) (h : ∀ d ∈ ds, isDigitChar d = true)
    (hc : isDigitChar c = false) : (ds ++ c :: rest).takeWhile isDigitChar = ds ∧
      (ds ++ c :: rest).dropWhile isDigitChar = c :: rest := by
  induction ds with
  | nil => simp [hc]
  | cons d ds ih =>
    have := ih (fun x hx => h x (by simp [hx]))
    simp [h d (by simp), this]

theorem tmSpKey_inj {a b c d : Nat} (h : tmSpKey a b = tmSpKey c d) : a = c ∧ b = d := by
  unfold tmSpKey pad2 at h
  have h := congrArg String.toList h
  simp only [String.toList_append, String.toList_ofList, List.append_assoc, List.append_cancel_left_eq] at h
  rw [show ("_SP" : String).toList = ['_', 'S', 'P'] from rfl] at h
  simp only [List.cons_append, List.nil_append] at h
  obtain ⟨h1, h2⟩ := takeWhile_digits (decimalPad 2 a) ('S' :: 'P' :: decimalPad 2 b) '_' (decimalPad_digits 2 a) (by decide)
  obtain ⟨h3, h4⟩ := takeWhile_digits (decimalPad 2 c) ('S' :: 'P' :: decimalPad 2 d) '_' (decimalPad_digits 2 c) (by decide)
  rw [h] at h1 h2
  rw [h1] at h3
  rw [h2] at h4
  simp only [List.cons.injEq, true_and] at h4
  exact ⟨decimalPad_injective h3, decimalPad_injective h4⟩

theorem get?_tmDict (n : Nat) (get : Nat → MetaVal ν) (tm : Nat) (h : tm < n) :
    Dict.get? (tmDict n get) (tmKey tm) = some (get tm) :=
  get?_foldl_set tmKey get (List.range n) [] (fun a _ b _ h => tmKey_inj h) tm (by simpa using h)

theorem get?_tmSpDict (n m : Nat) (get : Nat → Nat → MetaVal ν) (tm sp : Nat) (h : tm < n) (h' : sp < m) :
    Dict.get? (tmSpDict n m get) (tmSpKey tm sp) = some (get tm sp) := by
  rw [tmSpDict_eq]
  refine get?_foldl_set (fun p : Nat × Nat => tmSpKey p.1 p.2) (fun p => get p.1 p.2) _ [] ?_ (tm, sp) ?_
  · rintro ⟨a, b⟩ - ⟨c, d⟩ - h
    obtain ⟨rfl, rfl⟩ := tmSpKey_inj h
    rfl
  · simp [h, h']

theorem nodup_tmDict (n : Nat) (get : Nat → MetaVal ν) : (Dict.keys (tmDict n get)).Nodup :=
  nodup_foldl_set tmKey get _ _ (by simp [Dict.keys])

theorem nodup_tmSpDict (n m : Nat) (get : Nat → Nat → MetaVal ν) : (Dict.keys (tmSpDict n m get)).Nodup := by
  rw [tmSpDict_eq]
  exact nodup_foldl_set (fun p : Nat × Nat => tmSpKey p.1 p.2) (fun p => get p.1 p.2) _ [] (by simp [Dict.keys])

theorem nodup_dl1Meta (rd : RawReader τ ε β ν) (enc : Option τ → ν) (st : LoopState S τ β ν)
    (h : (Dict.keys rd.otherMeta).Nodup) : (Dict.keys (dl1Meta rd enc st)).Nodup := by
  unfold dl1Meta
  exact Dict.nodup_keys_set _ _ _ (Dict.nodup_keys_set _ _ _ (Dict.nodup_keys_set _ _ _ (Dict.nodup_keys_set _ _ _
    (Dict.nodup_keys_update _ _ h))))

end Verif.Lemmas
