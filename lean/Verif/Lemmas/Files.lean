import Verif.Model.Files
import Mathlib.Data.List.Basic
import Mathlib.Data.List.Induction

namespace Verif.Lemmas

open Verif.Py Verif.Model

/-! ### sequence comparison -/

section
variable {α : Type} [DecidableEq α] (lt : α → α → Bool)

theorem seqLt_irrefl (a : List α) : seqLt lt a a = false := by
  induction a with
  | nil => rfl
  | cons x a ih => simp [seqLt, ih]

theorem seqLt_trichotomy (htri : ∀ a b, a = b ∨ lt a b = true ∨ lt b a = true) (a b : List α) :
    a = b ∨ seqLt lt a b = true ∨ seqLt lt b a = true := by
  induction a generalizing b with
  | nil => cases b <;> simp [seqLt]
  | cons x a ih =>
    cases b with
    | nil => simp [seqLt]
    | cons y b =>
      by_cases hxy : x = y
      · subst hxy
        rcases ih b with h | h | h
        · exact Or.inl (by rw [h])
        · exact Or.inr (Or.inl (by simp [seqLt, h]))
        · exact Or.inr (Or.inr (by simp [seqLt, h]))
      · rcases htri x y with h | h | h
        · exact absurd h hxy
        · exact Or.inr (Or.inl (by simp [seqLt, hxy, h]))
        · exact Or.inr (Or.inr (by simp [seqLt, h, show ¬ y = x from fun e => hxy e.symm]))

theorem seqLt_trans (hirr : ∀ a, lt a a = false) (htr : ∀ a b c, lt a b = true → lt b c = true → lt a c = true)
    (a b c : List α) (h1 : seqLt lt a b = true) (h2 : seqLt lt b c = true) : seqLt lt a c = true := by
  induction a generalizing b c with
  | nil =>
    cases b with
    | nil => simp [seqLt] at h1
    | cons y b => cases c <;> simp [seqLt] at *
  | cons x a ih =>
    cases b with
    | nil => simp [seqLt] at h1
    | cons y b =>
      cases c with
      | nil => simp [seqLt] at h2
      | cons z c =>
        simp only [seqLt] at h1 h2 ⊢
        by_cases hxy : x = y
        · subst hxy
          rw [if_pos rfl] at h1
          by_cases hxz : x = z
          · subst hxz
            rw [if_pos rfl] at h2 ⊢
            exact ih b c h1 h2
          · rw [if_neg hxz] at h2 ⊢
            exact h2
        · rw [if_neg hxy] at h1
          by_cases hyz : y = z
          · subst hyz
            rw [if_neg hxy]
            exact h1
          · rw [if_neg hyz] at h2
            have h3 := htr _ _ _ h1 h2
            by_cases hxz : x = z
            · subst hxz
              rw [hirr] at h3; cases h3
            · rw [if_neg hxz]; exact h3

end

/-! ### natural keys -/

/-- alternating keys: texts and numbers in turn -/
inductive Alternating : Bool → List KeyEl → Prop
  | nil (b : Bool) : Alternating b []
  | str (s : List Char) (ks : List KeyEl) : Alternating true ks → Alternating false (.str s :: ks)
  | int (n : Nat) (ks : List KeyEl) : Alternating false ks → Alternating true (.int n :: ks)

theorem atoi_digits (s : List Char) (h : ∀ c ∈ s, isDigitChar c = true) (hne : s ≠ []) :
    atoi s = .ok (.int (parseDec s)) := by
  have h2 : s.all isDigitChar = true := List.all_eq_true.2 h
  have h1 : s.all (fun c => isDigitChar c || isSuperscript c) = true :=
    List.all_eq_true.2 fun c hc => by simp [h c hc]
  unfold atoi
  rw [if_pos ⟨hne, h1⟩, if_pos h2]

theorem atoi_text (s : List Char) (h : ∀ c ∈ s, isDigitChar c = false) (k : KeyEl) (hk : atoi s = .ok k) :
    k = .str s := by
  unfold atoi at hk
  by_cases h1 : s ≠ [] ∧ s.all (fun c => isDigitChar c || isSuperscript c) = true
  · rw [if_pos h1] at hk
    have h2 : ¬ s.all isDigitChar = true := by
      intro h3
      obtain ⟨c, hc⟩ := List.exists_mem_of_ne_nil _ h1.1
      have := List.all_eq_true.1 h3 c hc
      rw [h c hc] at this; cases this
    rw [if_neg h2] at hk
    cases hk
  · rw [if_neg h1] at hk
    injection hk with hk
    exact hk.symm

theorem atoi_text_ok (s : List Char) (h : ∀ c ∈ s, isDigitChar c = false) (hs : ∀ c ∈ s, isSuperscript c = false) :
    atoi s = .ok (.str s) := by
  unfold atoi
  rw [if_neg]
  rintro ⟨h1, h2⟩
  obtain ⟨c, hc⟩ := List.exists_mem_of_ne_nil _ h1
  have := List.all_eq_true.1 h2 c hc
  simp [h c hc, hs c hc] at this

theorem atoiAll_cons_ok (p : List Char) (ps : List (List Char)) (ks : List KeyEl) (h : atoiAll (p :: ps) = .ok ks) :
    ∃ k ks', atoi p = .ok k ∧ atoiAll ps = .ok ks' ∧ ks = k :: ks' := by
  unfold atoiAll at h
  cases h1 : atoi p with
  | error e => rw [h1] at h; cases h
  | ok k =>
    rw [h1] at h
    cases h2 : atoiAll ps with
    | error e => rw [h2] at h; cases h
    | ok ks' =>
      rw [h2] at h
      injection h with h
      exact ⟨k, ks', rfl, rfl, h.symm⟩

theorem piece_alternating (b : Bool) (cur : List Char) (hcur : ∀ c ∈ cur, isDigitChar c = b)
    (hb : b = true → cur ≠ []) (k : KeyEl) (hk : atoi cur = .ok k) (ks : List KeyEl) (h : Alternating (!b) ks) :
    Alternating b (k :: ks) := by
  cases b with
  | false => rw [atoi_text cur hcur k hk]; exact .str _ _ h
  | true =>
    rw [atoi_digits cur hcur (hb rfl)] at hk
    injection hk with hk
    subst hk
    exact .int _ _ h

theorem splitRuns_alternating (b : Bool) (cur cs : List Char) (hcur : ∀ c ∈ cur, isDigitChar c = b)
    (hb : b = true → cur ≠ []) (ks : List KeyEl) (h : atoiAll (splitRuns b cur cs) = .ok ks) : Alternating b ks := by
  induction cs generalizing b cur ks with
  | nil =>
    unfold splitRuns at h
    cases b with
    | false =>
      rw [if_neg (by simp)] at h
      obtain ⟨k, ks', h1, h2, rfl⟩ := atoiAll_cons_ok _ _ _ h
      injection h2 with h2
      subst h2
      exact piece_alternating _ _ hcur hb k h1 _ (.nil _)
    | true =>
      rw [if_pos rfl] at h
      obtain ⟨k, ks', h1, h2, rfl⟩ := atoiAll_cons_ok _ _ _ h
      refine piece_alternating _ _ hcur hb k h1 _ ?_
      injection h2 with h2
      subst h2
      exact .str _ _ (.nil _)
  | cons c cs ih =>
    unfold splitRuns at h
    by_cases hc : isDigitChar c = b
    · rw [if_pos hc] at h
      refine ih b _ ?_ (fun _ => by simp) ks h
      intro x hx
      rcases List.mem_append.1 hx with hx | hx
      · exact hcur x hx
      · rw [List.mem_singleton.1 hx]; exact hc
    · rw [if_neg hc] at h
      obtain ⟨k, ks', h1, h2, rfl⟩ := atoiAll_cons_ok _ _ _ h
      refine piece_alternating _ _ hcur hb k h1 _ (ih (!b) [c] ?_ (fun _ => by simp) ks' h2)
      intro x hx
      rw [List.mem_singleton.1 hx]
      cases b <;> simpa using hc

theorem naturalKeys_alternating (s : List Char) : Alternating false ((naturalKeys s).toOption.getD []) := by
  cases h : naturalKeys s with
  | error e => exact .nil _
  | ok ks => exact splitRuns_alternating false [] s (by simp) (by simp) ks h

/-! ### comparing alternating keys -/

/-- numbers before texts; only used where both are of the same kind -/
def elLt' : KeyEl → KeyEl → Bool
  | .int a, .int b => decide (a < b)
  | .str a, .str b => seqLt (fun x y => decide (x.toNat < y.toNat)) a b
  | .int _, .str _ => true
  | .str _, .int _ => false

theorem charLt_tri (a b : Char) : a = b ∨ decide (a.toNat < b.toNat) = true ∨ decide (b.toNat < a.toNat) = true := by
  by_cases h : a.toNat = b.toNat
  · exact Or.inl (Char.toNat_inj.1 h)
  · simp only [decide_eq_true_eq]; omega

theorem elLt'_tri (a b : KeyEl) : a = b ∨ elLt' a b = true ∨ elLt' b a = true := by
  cases a with
  | str s =>
    cases b with
    | str t =>
      rcases seqLt_trichotomy _ charLt_tri s t with h | h | h
      · exact Or.inl (by rw [h])
      · exact Or.inr (Or.inl h)
      · exact Or.inr (Or.inr h)
    | int n => exact Or.inr (Or.inr rfl)
  | int m =>
    cases b with
    | str t => exact Or.inr (Or.inl rfl)
    | int n =>
      simp only [elLt', decide_eq_true_eq, KeyEl.int.injEq]; omega

theorem elLt'_irrefl (a : KeyEl) : elLt' a a = false := by
  cases a with
  | str s => exact seqLt_irrefl _ s
  | int m => simp [elLt']

theorem elLt'_trans (a b c : KeyEl) (h1 : elLt' a b = true) (h2 : elLt' b c = true) : elLt' a c = true := by
  cases a <;> cases b <;> cases c <;> simp only [elLt', decide_eq_true_eq, Bool.false_eq_true] at *
  · exact seqLt_trans _ (by simp) (by simp only [decide_eq_true_eq]; intro a b c; omega) _ _ _ h1 h2
  · omega

theorem keyLt_eq (b : Bool) (k k' : List KeyEl) (h : Alternating b k) (h' : Alternating b k') :
    keyLt k k' = .ok (seqLt elLt' k k') := by
  induction h generalizing k' with
  | nil b => cases k' <;> rfl
  | str s ks _ ih =>
    cases h' with
    | nil => rfl
    | str t ks' h' =>
      unfold keyLt seqLt
      by_cases e : KeyEl.str s = KeyEl.str t
      · rw [if_pos e, if_pos e, ih _ h']
      · rw [if_neg e, if_neg e]; rfl
  | int m ks _ ih =>
    cases h' with
    | nil => rfl
    | int n ks' h' =>
      unfold keyLt seqLt
      by_cases e : KeyEl.int m = KeyEl.int n
      · rw [if_pos e, if_pos e, ih _ h']
      · rw [if_neg e, if_neg e]; rfl

/-- the key, empty for names without a key -/
def keyOf (s : List Char) : List KeyEl := (naturalKeys s).toOption.getD []

theorem nameLe_eq (a b : List Char) : nameLe a b = !seqLt elLt' (keyOf b) (keyOf a) := by
  unfold nameLe keyOf
  rw [keyLt_eq false _ _ (naturalKeys_alternating b) (naturalKeys_alternating a)]
  cases seqLt elLt' ((naturalKeys b).toOption.getD []) ((naturalKeys a).toOption.getD []) <;> rfl

theorem nameLe_total (a b : List Char) : (nameLe a b || nameLe b a) = true := by
  rw [nameLe_eq, nameLe_eq]
  rcases h : seqLt elLt' (keyOf b) (keyOf a) with _ | _
  · rfl
  · rcases h' : seqLt elLt' (keyOf a) (keyOf b) with _ | _
    · rfl
    · have := seqLt_trans elLt' elLt'_irrefl elLt'_trans _ _ _ h h'
      rw [seqLt_irrefl] at this; cases this

theorem nameLe_trans (a b c : List Char) (h1 : nameLe a b = true) (h2 : nameLe b c = true) : nameLe a c = true := by
  rw [nameLe_eq] at *
  simp only [Bool.not_eq_true'] at *
  by_contra hca
  rw [Bool.not_eq_false] at hca
  rcases seqLt_trichotomy elLt' elLt'_tri (keyOf a) (keyOf b) with h | h | h
  · rw [h] at hca; rw [hca] at h2; cases h2
  · have := seqLt_trans elLt' elLt'_irrefl elLt'_trans _ _ _ hca h
    rw [this] at h2; cases h2
  · rw [h] at h1; cases h1

/-! ### the key of a composed name -/

theorem splitRuns_run (b : Bool) (cur run rest : List Char) (h : ∀ c ∈ run, isDigitChar c = b) :
    splitRuns b cur (run ++ rest) = splitRuns b (cur ++ run) rest := by
  induction run generalizing cur with
  | nil => simp
  | cons c run ih =>
    rw [List.cons_append, splitRuns, if_pos (h c (by simp)), ih _ (fun x hx => h x (by simp [hx]))]
    simp

/-- the pieces before the last, unfinished one depend on the beginning only -/
theorem splitRuns_append (b : Bool) (cur pre : List Char) :
    ∃ (ps : List (List Char)) (b' : Bool) (cur' : List Char), (∀ rest, splitRuns b cur (pre ++ rest) = ps ++ splitRuns b' cur' rest) ∧
      ((pre = [] ∧ b' = b) ∨ ∃ c, pre.getLast? = some c ∧ b' = isDigitChar c) := by
  induction pre generalizing b cur with
  | nil => exact ⟨[], b, cur, fun _ => rfl, Or.inl ⟨rfl, rfl⟩⟩
  | cons c pre ih =>
    by_cases hc : isDigitChar c = b
    · obtain ⟨ps, b', cur', h1, h2⟩ := ih b (cur ++ [c])
      refine ⟨ps, b', cur', fun rest => ?_, Or.inr ?_⟩
      · rw [List.cons_append, splitRuns, if_pos hc, h1]
      · rcases h2 with ⟨rfl, rfl⟩ | ⟨d, hd, e⟩
        · exact ⟨c, rfl, hc.symm⟩
        · refine ⟨d, ?_, e⟩
          rw [List.getLast?_cons, hd]; rfl
    · obtain ⟨ps, b', cur', h1, h2⟩ := ih (!b) [c]
      refine ⟨cur :: ps, b', cur', fun rest => ?_, Or.inr ?_⟩
      · rw [List.cons_append, splitRuns, if_neg hc, h1]; rfl
      · rcases h2 with ⟨rfl, rfl⟩ | ⟨d, hd, e⟩
        · refine ⟨c, rfl, ?_⟩
          cases b <;> simpa using hc
        · refine ⟨d, ?_, e⟩
          rw [List.getLast?_cons, hd]; rfl

theorem splitRuns_digits (cur run rest : List Char) (h : ∀ c ∈ run, isDigitChar c = true) (hne : run ≠ [])
    (hrest : ∀ c, rest.head? = some c → isDigitChar c = false) :
    splitRuns false cur (run ++ rest) = cur :: run :: splitRuns false [] rest := by
  cases run with
  | nil => exact absurd rfl hne
  | cons d run =>
    rw [List.cons_append, splitRuns, if_neg (by rw [h d (by simp)]; simp),
      splitRuns_run _ _ _ _ (fun c hc => by rw [h c (by simp [hc])]; rfl)]
    congr 1
    cases rest with
    | nil => rfl
    | cons c rest =>
      have hc := hrest c rfl
      rw [splitRuns, if_neg (by rw [hc]; simp)]
      rw [splitRuns, if_pos hc]
      rfl

/-- every name without superscripts has a key -/
theorem splitRuns_key (b : Bool) (cur cs : List Char) (hcur : ∀ c ∈ cur, isDigitChar c = b) (hb : b = true → cur ≠ [])
    (hs : ∀ c ∈ cur ++ cs, isSuperscript c = false) : ∃ ks, atoiAll (splitRuns b cur cs) = .ok ks := by
  induction cs generalizing b cur with
  | nil =>
    rw [List.append_nil] at hs
    cases b with
    | false => exact ⟨[.str cur], by simp [splitRuns, atoiAll, atoi_text_ok cur hcur hs]⟩
    | true =>
      exact ⟨[.int (parseDec cur), .str []], by
        rw [splitRuns, if_pos rfl, atoiAll, atoi_digits cur hcur (hb rfl)]; rfl⟩
  | cons c cs ih =>
    rw [splitRuns]
    by_cases hc : isDigitChar c = b
    · rw [if_pos hc]
      refine ih b _ ?_ (fun _ => by simp) (by simpa using hs)
      intro x hx
      rcases List.mem_append.1 hx with hx | hx
      · exact hcur x hx
      · rw [List.mem_singleton.1 hx]; exact hc
    · rw [if_neg hc]
      obtain ⟨ks, hks⟩ := ih (!b) [c] (by
        intro x hx
        rw [List.mem_singleton.1 hx]
        cases b <;> simpa using hc) (fun _ => by simp) (fun x hx => hs x (by
          rcases List.mem_append.1 hx with h | h
          · rw [List.mem_singleton.1 h]; simp
          · simp [h]))
      rw [atoiAll, hks]
      have : ∃ k, atoi cur = .ok k := by
        cases b with
        | false => exact ⟨_, atoi_text_ok cur hcur (fun x hx => hs x (by simp [hx]))⟩
        | true => exact ⟨_, atoi_digits cur hcur (hb rfl)⟩
      obtain ⟨k, hk⟩ := this
      rw [hk]
      exact ⟨_, rfl⟩

theorem allKeys_ok (names : List (List Char)) (h : ∀ n ∈ names, ∃ k, naturalKeys n = .ok k) : allKeys names = .ok () := by
  induction names with
  | nil => rfl
  | cons n names ih =>
    obtain ⟨k, hk⟩ := h n (by simp)
    rw [allKeys, hk]
    exact ih fun m hm => h m (by simp [hm])

theorem allKeys_ok_iff (names : List (List Char)) (h : allKeys names = .ok ()) : ∀ n ∈ names, ∃ k, naturalKeys n = .ok k := by
  induction names with
  | nil => simp
  | cons n names ih =>
    rw [allKeys] at h
    cases hk : naturalKeys n with
    | error e => rw [hk] at h; cases h
    | ok k =>
      rw [hk] at h
      intro m hm
      rcases List.mem_cons.1 hm with rfl | hm
      · exact ⟨k, hk⟩
      · exact ih h m hm

end Verif.Lemmas
