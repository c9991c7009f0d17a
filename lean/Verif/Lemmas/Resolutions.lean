import Verif.Model.Resolutions
import Mathlib.Data.List.Sort
import Mathlib.Algebra.BigOperators.Group.List.Basic

namespace Verif.Lemmas

open Verif.Py Verif.Model

section
variable {α κ M : Type} [DecidableEq κ] [AddCommMonoid M]

theorem sum_ite_single (ks : List κ) (hn : ks.Nodup) (k : κ) (x : M) :
    (ks.map fun k' => if k = k' then x else 0).sum = if k ∈ ks then x else 0 := by
  induction ks with
  | nil => simp
  | cons a ks ih =>
    rw [List.nodup_cons] at hn
    rw [List.map_cons, List.sum_cons, ih hn.2]
    by_cases h : k = a
    · subst h; simp [hn.1]
    · simp [h]

/-- summing group by group is summing over everything -/
theorem sum_groups (key : α → κ) (f : α → M) (ks : List κ) (hn : ks.Nodup) (A : List α) (hA : ∀ a ∈ A, key a ∈ ks) :
    (ks.map fun k => ((A.filter fun a => key a = k).map f).sum).sum = (A.map f).sum := by
  induction A with
  | nil => simp
  | cons a A ih =>
    have h1 : ∀ k, (((a :: A).filter fun a => key a = k).map f).sum = (if key a = k then f a else 0) + ((A.filter fun a => key a = k).map f).sum := by
      intro k
      by_cases h : key a = k
      · simp [h]
      · simp [h]
    simp only [h1]
    rw [List.sum_map_add, ih fun x hx => hA x (by simp [hx]), sum_ite_single ks hn, if_pos (hA a (by simp))]
    simp

end

/-- the columns that are summed -/
inductive Summed {M : Type} [AddCommMonoid M] : (ResRow → M) → Prop
  | intro (f : ResRow → M) (h : ∀ (p : Int) (k : ℚ) (g : List ResRow),
      f ⟨p, k, some (nanSum (g.map (·.sum))), some (nanSum (g.map (·.sum2))), (g.map (·.n)).sum⟩ = (g.map f).sum) : Summed f

theorem summed_sum : Summed fun r => r.sum.getD 0 := .intro _ fun _ _ g => by simp [nanSum, Function.comp_def]
theorem summed_sum2 : Summed fun r => r.sum2.getD 0 := .intro _ fun _ _ g => by simp [nanSum, Function.comp_def]
theorem summed_n : Summed fun r => r.n := .intro _ fun _ _ g => by simp

/-- sum of a column over the rows whose key satisfies `P` -/
def sumAt {M : Type} [AddCommMonoid M] (P : ResKey → Bool) (f : ResRow → M) (rows : List ResRow) : M :=
  ((rows.filter fun r => P r.resKey).map f).sum

theorem sumAt_append {M : Type} [AddCommMonoid M] (P : ResKey → Bool) (f : ResRow → M) (a b : List ResRow) :
    sumAt P f (a ++ b) = sumAt P f a + sumAt P f b := by
  simp [sumAt]

theorem sumAt_perm {M : Type} [AddCommMonoid M] (P : ResKey → Bool) (f : ResRow → M) (a b : List ResRow) (h : a.Perm b) :
    sumAt P f a = sumAt P f b := ((h.filter _).map f).sum_eq

theorem groupRow_key (k : ResKey) (g : List ResRow) :
    ResRow.resKey ⟨(ofLex k).1, (ofLex k).2, some (nanSum (g.map (·.sum))), some (nanSum (g.map (·.sum2))), (g.map (·.n)).sum⟩ = k := rfl

theorem sumAt_group {M : Type} [AddCommMonoid M] (P : ResKey → Bool) (f : ResRow → M) (hf : Summed f) (rows : List ResRow) :
    sumAt P f (groupByPixel rows) = sumAt P f rows := by
  obtain ⟨hf⟩ := hf
  unfold sumAt groupByPixel
  rw [List.filter_map, List.map_map]
  have h1 := sum_groups ResRow.resKey f ((unique (rows.map ResRow.resKey)).filter P) ((nodup_unique _).filter _)
    (rows.filter fun r => P r.resKey) (by
      intro a ha
      rw [List.mem_filter] at ha
      rw [List.mem_filter, mem_unique]
      exact ⟨List.mem_map.2 ⟨a, ha.1, rfl⟩, ha.2⟩)
  rw [← h1]
  have e : List.filter ((fun r => P r.resKey) ∘ fun k =>
      (⟨(ofLex k).1, (ofLex k).2, some (nanSum ((rows.filter fun r => r.resKey = k).map (·.sum))),
        some (nanSum ((rows.filter fun r => r.resKey = k).map (·.sum2))), ((rows.filter fun r => r.resKey = k).map (·.n)).sum⟩ : ResRow))
      (unique (rows.map ResRow.resKey)) = (unique (rows.map ResRow.resKey)).filter P := by
    refine List.filter_congr fun k _ => ?_
    rfl
  simp only at e ⊢
  rw [e]
  congr 1
  refine List.map_congr_left fun k hk => ?_
  simp only [Function.comp_apply]
  rw [hf, List.filter_filter]
  congr 2
  refine List.filter_congr fun r _ => ?_
  rw [List.mem_filter] at hk
  by_cases h : r.resKey = k
  · simp [h, hk.2]
  · simp [h]

theorem mem_keys_group (rows : List ResRow) (k : ResKey) : k ∈ (groupByPixel rows).map ResRow.resKey ↔ k ∈ rows.map ResRow.resKey := by
  unfold groupByPixel
  rw [List.map_map]
  have : (unique (rows.map ResRow.resKey)).map (ResRow.resKey ∘ fun k =>
      (⟨(ofLex k).1, (ofLex k).2, some (nanSum ((rows.filter fun r => r.resKey = k).map (·.sum))),
        some (nanSum ((rows.filter fun r => r.resKey = k).map (·.sum2))), ((rows.filter fun r => r.resKey = k).map (·.n)).sum⟩ : ResRow)) =
      unique (rows.map ResRow.resKey) := by
    conv_rhs => rw [← List.map_id (unique (rows.map ResRow.resKey))]
    exact List.map_congr_left fun k _ => rfl
  simp only at this ⊢
  rw [this, mem_unique]

/-- two collections of rows agree on the kept keys -/
structure Agree (keep : ResKey → Bool) (A B : List ResRow) : Prop where
  keys : ∀ k, keep k = true → (k ∈ A.map ResRow.resKey ↔ k ∈ B.map ResRow.resKey)
  sum : ∀ P : ResKey → Bool, (∀ k, P k = true → keep k = true) → sumAt P (fun r => r.sum.getD 0) A = sumAt P (fun r => r.sum.getD 0) B
  sum2 : ∀ P : ResKey → Bool, (∀ k, P k = true → keep k = true) → sumAt P (fun r => r.sum2.getD 0) A = sumAt P (fun r => r.sum2.getD 0) B
  n : ∀ P : ResKey → Bool, (∀ k, P k = true → keep k = true) → sumAt P (fun r => r.n) A = sumAt P (fun r => r.n) B

theorem Agree.refl (keep : ResKey → Bool) (A : List ResRow) : Agree keep A A :=
  ⟨fun _ _ => Iff.rfl, fun _ _ => rfl, fun _ _ => rfl, fun _ _ => rfl⟩

theorem Agree.trans {keep : ResKey → Bool} {A B C : List ResRow} (h : Agree keep A B) (h' : Agree keep B C) : Agree keep A C :=
  ⟨fun k hk => (h.keys k hk).trans (h'.keys k hk), fun P hP => (h.sum P hP).trans (h'.sum P hP),
    fun P hP => (h.sum2 P hP).trans (h'.sum2 P hP), fun P hP => (h.n P hP).trans (h'.n P hP)⟩

theorem Agree.symm {keep : ResKey → Bool} {A B : List ResRow} (h : Agree keep A B) : Agree keep B A :=
  ⟨fun k hk => (h.keys k hk).symm, fun P hP => (h.sum P hP).symm, fun P hP => (h.sum2 P hP).symm, fun P hP => (h.n P hP).symm⟩

theorem Agree.append {keep : ResKey → Bool} {A B : List ResRow} (h : Agree keep A B) (C : List ResRow) : Agree keep (A ++ C) (B ++ C) := by
  refine ⟨fun k hk => ?_, fun P hP => ?_, fun P hP => ?_, fun P hP => ?_⟩
  · rw [List.map_append, List.map_append, List.mem_append, List.mem_append, h.keys k hk]
  · rw [sumAt_append, sumAt_append, h.sum P hP]
  · rw [sumAt_append, sumAt_append, h.sum2 P hP]
  · rw [sumAt_append, sumAt_append, h.n P hP]

theorem Agree.perm {keep : ResKey → Bool} {A B : List ResRow} (h : A.Perm B) : Agree keep A B :=
  ⟨fun _ _ => (h.map ResRow.resKey).mem_iff, fun P _ => sumAt_perm P _ A B h, fun P _ => sumAt_perm P _ A B h, fun P _ => sumAt_perm P _ A B h⟩

theorem Agree.group (keep : ResKey → Bool) (A : List ResRow) : Agree keep (groupByPixel A) A :=
  ⟨fun k _ => mem_keys_group A k, fun P _ => sumAt_group P _ summed_sum A, fun P _ => sumAt_group P _ summed_sum2 A,
    fun P _ => sumAt_group P _ summed_n A⟩

theorem Agree.filter (keep : ResKey → Bool) (A : List ResRow) : Agree keep (A.filter fun r => keep r.resKey) A := by
  have key : ∀ {M : Type} [AddCommMonoid M] (f : ResRow → M) (P : ResKey → Bool), (∀ k, P k = true → keep k = true) →
      sumAt P f (A.filter fun r => keep r.resKey) = sumAt P f A := by
    intro M _ f P hP
    unfold sumAt
    rw [List.filter_filter]
    congr 2
    refine List.filter_congr fun r _ => ?_
    cases h : P r.resKey with
    | false => rfl
    | true => rw [hP _ h]; rfl
  refine ⟨fun k hk => ?_, fun P hP => key _ P hP, fun P hP => key _ P hP, fun P hP => key _ P hP⟩
  simp only [List.mem_map, List.mem_filter]
  constructor
  · rintro ⟨r, ⟨h1, _⟩, h2⟩
    exact ⟨r, h1, h2⟩
  · rintro ⟨r, h1, rfl⟩
    exact ⟨r, ⟨h1, hk⟩, rfl⟩

/-- the group row of a key -/
def groupRow (rows : List ResRow) (k : ResKey) : ResRow :=
  ⟨(ofLex k).1, (ofLex k).2, some (sumAt (fun k' => k' = k) (fun r => r.sum.getD 0) rows),
    some (sumAt (fun k' => k' = k) (fun r => r.sum2.getD 0) rows), sumAt (fun k' => k' = k) (fun r => r.n) rows⟩

theorem groupByPixel_eq (rows : List ResRow) : groupByPixel rows = (unique (rows.map ResRow.resKey)).map (groupRow rows) := by
  unfold groupByPixel groupRow sumAt nanSum
  refine List.map_congr_left fun k _ => ?_
  simp [Function.comp_def]

theorem filter_group_eq (keep : ResKey → Bool) (A : List ResRow) :
    (groupByPixel A).filter (fun r => keep r.resKey) = ((unique (A.map ResRow.resKey)).filter keep).map (groupRow A) := by
  rw [groupByPixel_eq, List.filter_map]
  congr 1

theorem Agree.group_eq {keep : ResKey → Bool} {A B : List ResRow} (h : Agree keep A B) :
    (groupByPixel A).filter (fun r => keep r.resKey) = (groupByPixel B).filter (fun r => keep r.resKey) := by
  rw [filter_group_eq, filter_group_eq]
  have e : (unique (A.map ResRow.resKey)).filter keep = (unique (B.map ResRow.resKey)).filter keep := by
    refine List.Pairwise.eq_of_mem_iff (r := (· < ·)) ((pairwise_unique _).filter _) ((pairwise_unique _).filter _) fun k => ?_
    rw [List.mem_filter, List.mem_filter, mem_unique, mem_unique]
    constructor
    · rintro ⟨h1, h2⟩; exact ⟨(h.keys k h2).1 h1, h2⟩
    · rintro ⟨h1, h2⟩; exact ⟨(h.keys k h2).2 h1, h2⟩
  rw [e]
  refine List.map_congr_left fun k hk => ?_
  rw [List.mem_filter] at hk
  have hP : ∀ k', decide (k' = k) = true → keep k' = true := by
    intro k' hk'
    rw [of_decide_eq_true hk']; exact hk.2
  unfold groupRow
  rw [h.sum _ hP, h.sum2 _ hP, h.n _ hP]

/-! ### sessions -/

/-- everything an object holds -/
def contents (s : ResState) : List ResRow := s.df.getD [] ++ s.dfList.flatten

/-- something was added before -/
def Started (s : ResState) : Prop := s.df ≠ none ∨ s.dfList ≠ []

theorem amalgamate_ok (s : ResState) (h : Started s) :
    amalgamate s = .ok ⟨[], some (groupByPixel (contents s)), 0⟩ := by
  unfold amalgamate contents
  rcases s with ⟨l, df, nb⟩
  cases df with
  | some d => cases l <;> rfl
  | none =>
    cases l with
    | nil => rcases h with h | h <;> exact absurd rfl h
    | cons a l => rfl

theorem amalgamate_fails (s : ResState) (h : ¬ Started s) : amalgamate s = .error .keyError := by
  unfold Started at h
  push Not at h
  unfold amalgamate
  rw [h.1, h.2]

theorem addFrame_ok (mem : List ResRow → Nat) (s : ResState) (df : List ResRow) :
    ∃ s', addFrame mem s df = .ok s' ∧ Started s' ∧ ∀ keep, Agree keep (contents s') (contents s ++ df) := by
  unfold addFrame
  simp only
  have hc : contents { s with dfList := s.dfList ++ [df], nBytes := s.nBytes + mem df } = contents s ++ df := by
    simp [contents]
  have hst : Started { s with dfList := s.dfList ++ [df], nBytes := s.nBytes + mem df } := Or.inr (by simp)
  split
  · rw [amalgamate_ok _ hst]
    refine ⟨_, rfl, Or.inl (by simp), fun keep => ?_⟩
    have : contents ⟨[], some (groupByPixel (contents { s with dfList := s.dfList ++ [df], nBytes := s.nBytes + mem df })), 0⟩ =
        groupByPixel (contents s ++ df) := by
      rw [hc]; simp [contents]
    rw [this]
    exact Agree.group keep _
  · exact ⟨_, rfl, hst, fun keep => hc ▸ Agree.refl keep _⟩

/-! ### the camera table -/

theorem sum_filter_key {M : Type} [AddCommMonoid M] (f : ResRow → M) (k : ℚ) (rows : List ResRow) :
    ((rows.filter fun r => r.key = k).map f).sum = sumAt (fun x => (ofLex x).2 = k) f rows := rfl

/-- the camera row of a true charge -/
def cameraRow (rows : List ResRow) (k : ℚ) : ResRow :=
  ⟨0, k, some (sumAt (fun x => (ofLex x).2 = k) (fun r => r.sum.getD 0) rows),
    some (sumAt (fun x => (ofLex x).2 = k) (fun r => r.sum2.getD 0) rows), sumAt (fun x => (ofLex x).2 = k) (fun r => r.n) rows⟩

theorem groupByKey_eq (rows : List ResRow) : groupByKey rows = (unique (rows.map (·.key))).map (cameraRow rows) := by
  unfold groupByKey cameraRow nanSum
  refine List.map_congr_left fun k _ => ?_
  simp only [← sum_filter_key, List.map_map, Function.comp_def]

end Verif.Lemmas
