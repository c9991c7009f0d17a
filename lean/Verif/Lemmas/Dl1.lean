import Verif.Lemmas.Hdf5Reader
import Verif.Spec.Dl1
import Mathlib.Data.List.Nodup
import Mathlib.Data.List.Perm.Basic

namespace Verif.Lemmas

open Verif.Py Verif.Model Verif.Spec

variable {τ ε β ν S : Type}

/-! ### the loop -/

/-- the calls made for one processed event -/
def eventOps (rd : RawReader τ ε β ν) (p : Event τ ε × List β) : List (Op (DRow β) ν) :=
  [Op.append (eventFrame p.1.iev p.2) "data"] ++
    if rd.isMc then
      [Op.append [{ iev := p.1.iev, pixel := none, vals := rd.mcRow p.1 }] "mc",
       Op.append [{ iev := p.1.iev, pixel := none, vals := rd.pointingRow p.1 }] "pointing"]
    else []

structure LoopSpec (rd : RawReader τ ε β ν) (x : Extractor S τ ε β ν) (st0 : LoopState S τ β ν)
    (events : List (Event τ ε)) (st : LoopState S τ β ν) : Prop where
  processed : st.processed = st0.processed + (goodEvents events).length
  skipped : st.skipped + (goodEvents events).length = st0.skipped + events.length
  start : st.startTime = st0.startTime.or ((goodEvents events).head?.map Event.tCpu)
  finish : st.endTime = ((goodEvents events).getLast?.map Event.tCpu).or st0.endTime
  ext : ∃ vss, extractAll x st0.ext (goodEvents events) = .ok vss ∧ (∀ vs ∈ vss, vs.length = rd.nPixels) ∧
    vss.length = (goodEvents events).length ∧
    st.ops = st0.ops ++ ((goodEvents events).zip vss).flatMap (eventOps rd)

theorem dl1Loop_spec (rd : RawReader τ ε β ν) (x : Extractor S τ ε β ν) (events : List (Event τ ε))
    (st0 st : LoopState S τ β ν) (h : dl1Loop rd x st0 events = (st, none)) : LoopSpec rd x st0 events st := by
  induction events generalizing st0 with
  | nil =>
    simp [dl1Loop] at h
    subst h
    exact ⟨by simp [goodEvents], by simp [goodEvents], by simp [goodEvents], by simp [goodEvents],
      [], by simp [goodEvents, extractAll], by simp, by simp [goodEvents], by simp [goodEvents]⟩
  | cons e es ih =>
    simp only [dl1Loop] at h
    split at h
    · simp at h
    · rename_i st' hstep
      have ih' := ih st' h
      unfold dl1Step at hstep
      by_cases hs : skipEvent e
      · simp only [hs, if_true] at hstep
        simp at hstep
        subst hstep
        have hg : goodEvents (e :: es) = goodEvents es := by
          unfold goodEvents
          rw [List.filter_cons_of_neg]
          simp [skipEvent] at hs
          simp; grind
        obtain ⟨a, b, c, d, f⟩ := ih'
        refine ⟨?_, ?_, ?_, ?_, ?_⟩ <;> (try rw [hg])
        · exact a
        · simp at b ⊢; omega
        · exact c
        · exact d
        · exact f
      · simp only [hs, Bool.false_eq_true, if_false] at hstep
        have hg : goodEvents (e :: es) = e :: goodEvents es := by
          unfold goodEvents
          rw [List.filter_cons_of_pos]
          simp [skipEvent] at hs
          simp; grind
        split at hstep
        · simp at hstep
        · rename_i s vals hx
          split at hstep
          · simp at hstep
          · rename_i hlen
            simp only [Prod.mk.injEq, and_true] at hstep
            simp only [ne_eq, Decidable.not_not] at hlen
            obtain ⟨a, b, c, d, vss, f1, f2, f3, f4⟩ := ih'
            subst hstep
            simp only at a b c d f1 f4
            refine ⟨?_, ?_, ?_, ?_, vals :: vss, ?_, ?_, ?_, ?_⟩ <;> (try rw [hg])
            · rw [a]; simp; omega
            · simp; omega
            · rw [c]; cases st0.startTime <;> simp
            · rw [d]
              cases hl : (goodEvents es).getLast? with
              | none =>
                have : goodEvents es = [] := by simpa using hl
                simp [this]
              | some l =>
                rw [List.getLast?_cons]
                simp [hl]
            · simp only [extractAll, hx, f1]
            · intro vs hvs
              rcases List.mem_cons.1 hvs with rfl | hvs
              · exact hlen
              · exact f2 vs hvs
            · simp [f3]
            · rw [f4]
              simp only [List.zip_cons_cons, List.flatMap_cons, eventOps]
              split <;> simp

/-! ### the calls -/

theorem framesAppended_append (a b : List (Op (DRow β) ν)) (key : String) :
    framesAppended (a ++ b) key = framesAppended a key ++ framesAppended b key := by
  simp [framesAppended, List.filterMap_append]

theorem framesAppended_events (rd : RawReader τ ε β ν) (l : List (Event τ ε × List β)) :
    framesAppended (l.flatMap (eventOps rd)) "data" = l.map fun p => eventFrame p.1.iev p.2 := by
  induction l with
  | nil => rfl
  | cons p l ih =>
    rw [List.flatMap_cons, framesAppended_append, ih]
    unfold eventOps framesAppended
    split <;> simp

/-! ### sorting -/

theorem eventFrame_cast (castVals : β → β) (iev : Nat) (vals : List β) (h1 : iev < 4294967296)
    (h2 : vals.length ≤ 4294967296) :
    (eventFrame iev vals).map (castRow castVals) = eventRows castVals iev vals := by
  unfold eventFrame eventRows
  apply List.ext_getElem (by simp)
  intro i h3 h4
  simp at h3 h4
  simp [castRow, toUint32, Nat.mod_eq_of_lt h1]
  omega

theorem eventRows_sorted (castVals : β → β) (iev : Nat) (vals : List β) :
    (eventRows castVals iev vals).Pairwise fun a b => rowLe a b = true := by
  unfold eventRows
  rw [List.pairwise_iff_getElem]
  intro i j hi hj hij
  simp [rowLe]
  omega

theorem mem_eventRows (castVals : β → β) (iev : Nat) (vals : List β) (r : DRow β)
    (h : r ∈ eventRows castVals iev vals) : r.iev = iev ∧ ∃ p, ∃ (hp : p < vals.length), r.pixel = some p ∧
      r = { iev := iev, pixel := some p, vals := castVals vals[p] } := by
  unfold eventRows at h
  obtain ⟨i, hi, rfl⟩ := List.mem_iff_getElem.1 h
  simp at hi
  exact ⟨by simp, i, hi, by simp, by simp⟩

theorem rowLe_trans (a b c : DRow β) : rowLe a b = true → rowLe b c = true → rowLe a c = true := by
  simp [rowLe]; omega

theorem rowLe_total (a b : DRow β) : (rowLe a b || rowLe b a) = true := by
  simp [rowLe]; omega

/-- sorting a batch of whole events only permutes the events -/
theorem sort_blocks (castVals : β → β) (l : List (Nat × List β)) (hd : (l.map Prod.fst).Nodup) :
    ∃ l' : List (Nat × List β), l'.Perm l ∧ (l.flatMap fun p => eventRows castVals p.1 p.2).mergeSort rowLe
      = (l'.flatMap fun p => eventRows castVals p.1 p.2) ∧
      (l.Pairwise (fun a b => a.1 < b.1) → l' = l) := by
  refine ⟨l.mergeSort (fun a b => decide (a.1 ≤ b.1)), List.mergeSort_perm _ _, ?_⟩
  generalize hl' : l.mergeSort (fun a b => decide (a.1 ≤ b.1)) = l'
  have hp : l'.Perm l := by rw [← hl']; exact List.mergeSort_perm _ _
  have hs : l'.Pairwise fun a b => a.1 ≤ b.1 := by
    rw [← hl']
    have := List.pairwise_mergeSort (le := fun a b : Nat × List β => decide (a.1 ≤ b.1))
      (by simp; omega) (by simp; omega) l
    simpa using this
  have hd' : (l'.map Prod.fst).Nodup := (hp.map _).nodup_iff.2 hd
  have hlt : l'.Pairwise fun a b => a.1 < b.1 := by
    have := (List.pairwise_map.1 hd')
    refine (hs.and this).imp ?_
    rintro a b ⟨h1, h2⟩
    omega
  have hsorted : (l'.flatMap fun p => eventRows castVals p.1 p.2).Pairwise fun a b => rowLe a b = true := by
    rw [List.pairwise_flatMap]
    refine ⟨fun p _ => eventRows_sorted _ _ _, hlt.imp ?_⟩
    intro p q hpq a ha b hb
    rw [rowLe, (mem_eventRows _ _ _ _ ha).1, (mem_eventRows _ _ _ _ hb).1]
    simp [hpq]
  refine ⟨List.Perm.eq_of_pairwise (le := fun a b => rowLe a b = true) ?_ ?_ hsorted ?_, fun hl =>
    List.Perm.eq_of_pairwise (le := fun a b => a.1 < b.1) (fun a b _ _ h1 h2 => by omega) hlt hl hp⟩
  · intro a b ha hb hab hba
    have ha' : a ∈ l.flatMap fun p => eventRows castVals p.1 p.2 := (List.mergeSort_perm _ _).mem_iff.1 ha
    have hb' : b ∈ l.flatMap fun p => eventRows castVals p.1 p.2 := ((hp.flatMap_right _).mem_iff).1 hb
    obtain ⟨p, hpm, hpa⟩ := List.mem_flatMap.1 ha'
    obtain ⟨q, hqm, hqb⟩ := List.mem_flatMap.1 hb'
    obtain ⟨e1, i, hi, pi, ra⟩ := mem_eventRows _ _ _ _ hpa
    obtain ⟨e2, j, hj, pj, rb⟩ := mem_eventRows _ _ _ _ hqb
    rw [rowLe, e1, e2, pi, pj] at hab
    rw [rowLe, e1, e2, pi, pj] at hba
    simp at hab hba
    have hpq : p.1 = q.1 := by omega
    have hpq' : p = q := List.inj_on_of_nodup_map hd hpm hqm hpq
    subst hpq'
    have hij : i = j := by omega
    subst hij
    rw [ra, rb]
  · exact List.pairwise_mergeSort rowLe_trans rowLe_total _
  · exact (List.mergeSort_perm _ _).trans (hp.flatMap_right _).symm

theorem prep_blocks (castVals : β → β) (g : List (Nat × List β)) (hd : (g.map Prod.fst).Nodup)
    (h1 : ∀ p ∈ g, p.1 < 4294967296) (h2 : ∀ p ∈ g, p.2.length ≤ 4294967296) :
    ∃ g' : List (Nat × List β), g'.Perm g ∧ dl1Prep castVals (g.map fun p => eventFrame p.1 p.2).flatten
      = (g'.flatMap fun p => eventRows castVals p.1 p.2) ∧ (g.Pairwise (fun a b => a.1 < b.1) → g' = g) := by
  have hc : ((g.map fun p => eventFrame p.1 p.2).flatten).map (castRow castVals)
      = g.flatMap fun p => eventRows castVals p.1 p.2 := by
    rw [List.map_flatten, List.map_map, List.flatMap]
    congr 1
    refine List.map_congr_left fun p hp => ?_
    exact eventFrame_cast castVals p.1 p.2 (h1 p hp) (h2 p hp)
  unfold dl1Prep
  simp only [hc]
  rw [if_pos]
  · exact sort_blocks castVals g hd
  · rw [List.all_eq_true]
    intro r hr
    obtain ⟨p, -, hp⟩ := List.mem_flatMap.1 hr
    obtain ⟨-, i, -, hi, -⟩ := mem_eventRows _ _ _ _ hp
    simp [hi]

/-- cutting a mapped list into groups is cutting the list -/
theorem cuts_map {α γ : Type} (f : α → γ) (groups : List (List γ)) (l : List α) (h : Cuts groups (l.map f)) :
    ∃ gs : List (List α), gs.flatten = l ∧ groups = gs.map (List.map f) := by
  obtain ⟨h1, -⟩ := h
  induction groups generalizing l with
  | nil =>
    have : l = [] := by simpa using h1.symm
    exact ⟨[], by simp [this], rfl⟩
  | cons g groups ih =>
    simp only [List.flatten_cons] at h1
    obtain ⟨l1, l2, rfl, e1, e2⟩ := List.map_eq_append_iff.1 h1.symm
    obtain ⟨gs, a, b⟩ := ih l2 e2.symm
    exact ⟨l1 :: gs, by simp [a], by simp [b, e1]⟩

/-- the whole table is a permutation of the events -/
theorem batches_blocks (castVals : β → β) (gs : List (List (Nat × List β))) (hd : (gs.flatten.map Prod.fst).Nodup)
    (h1 : ∀ p ∈ gs.flatten, p.1 < 4294967296) (h2 : ∀ p ∈ gs.flatten, p.2.length ≤ 4294967296) :
    ∃ l' : List (Nat × List β), l'.Perm gs.flatten ∧
      ((gs.map (List.map fun p => eventFrame p.1 p.2)).map fun g => dl1Prep castVals g.flatten).flatten
      = (l'.flatMap fun p => eventRows castVals p.1 p.2) ∧
      (gs.flatten.Pairwise (fun a b => a.1 < b.1) → l' = gs.flatten) := by
  induction gs with
  | nil => exact ⟨[], by simp, rfl, fun _ => rfl⟩
  | cons g gs ih =>
    simp only [List.flatten_cons, List.map_append, List.nodup_append] at hd
    obtain ⟨l', hp, he, hs⟩ := ih hd.2.1 (fun p hp => h1 p (by simp only [List.flatten_cons, List.mem_append]; exact Or.inr hp))
      (fun p hp => h2 p (by simp only [List.flatten_cons, List.mem_append]; exact Or.inr hp))
    obtain ⟨g', hgp, hge, hgs⟩ := prep_blocks castVals g hd.1
      (fun p hp => h1 p (by simp only [List.flatten_cons, List.mem_append]; exact Or.inl hp))
      (fun p hp => h2 p (by simp only [List.flatten_cons, List.mem_append]; exact Or.inl hp))
    refine ⟨g' ++ l', by simpa using hgp.append hp, ?_, fun hpw => by
      rw [List.flatten_cons, List.pairwise_append] at hpw
      rw [hgs hpw.1, hs hpw.2.1, List.flatten_cons]⟩
    simp only [List.map_cons, List.flatten_cons, List.flatMap_append]
    rw [hge, he]

/-! ### reading blocks -/

theorem drop_take_flatten {α : Type} (n : Nat) (bs : List (List α)) (h : ∀ b ∈ bs, b.length = n) (i : Nat)
    (hi : i < bs.length) : (bs.flatten.drop (i * n)).take n = bs[i] := by
  induction bs generalizing i with
  | nil => simp at hi
  | cons b bs ih =>
    have hb := h b (by simp)
    cases i with
    | zero => simp [← hb]
    | succ i =>
      rw [List.flatten_cons, Nat.succ_mul, Nat.add_comm, ← List.drop_drop]
      rw [show (b ++ bs.flatten).drop n = bs.flatten from by rw [← hb]; simp]
      simpa using ih (fun x hx => h x (by simp [hx])) i (by simpa using hi)

theorem length_flatten_blocks {α : Type} (n : Nat) (bs : List (List α)) (h : ∀ b ∈ bs, b.length = n) :
    bs.flatten.length = bs.length * n := by
  induction bs with
  | nil => simp
  | cons b bs ih =>
    rw [List.flatten_cons, List.length_append, ih (fun x hx => h x (by simp [hx])), h b (by simp), List.length_cons,
      Nat.succ_mul]; omega

theorem reshape_blocks {α : Type} (n : Nat) (bs : List (List α)) (h : ∀ b ∈ bs, b.length = n) :
    reshape bs.length n bs.flatten = .ok bs := by
  unfold reshape
  rw [if_pos (length_flatten_blocks n bs h)]
  congr 1
  apply List.ext_getElem (by simp)
  intro i h1 h2
  simp only [List.getElem_map, List.getElem_range]
  exact drop_take_flatten n bs h i h2

theorem mapM_ok {α γ : Type} (f : α → Except Err γ) (l : List α) (g : α → γ) (h : ∀ x ∈ l, f x = .ok (g x)) :
    l.mapM f = .ok (l.map g) := by
  induction l with
  | nil => rfl
  | cons x l ih =>
    rw [List.mapM_cons, h x (by simp), ih (fun y hy => h y (by simp [hy]))]
    rfl

/-- a file whose `data` table consists of whole events, with the matching metadata -/
structure BlockFile (r : HReader (DRow β) ν) (n : Nat) (blocks : List (List (DRow β))) : Prop where
  node : ∃ nd, Dict.get? r.store "data" = some nd ∧ nd.rows = blocks.flatten ∧ nd.fmt = .table
  size : ∀ b ∈ blocks, b.length = n
  pos : 0 < n
  nEvents : metaInt r "n_events" = .ok blocks.length
  nPixels : metaInt r "n_pixels" = .ok n

/-- id of an event -/
def blockId (b : List (DRow β)) : Nat := match b with
  | [] => 0
  | r :: _ => r.iev

theorem blockFile_select (r : HReader (DRow β) ν) (n : Nat) (blocks : List (List (DRow β))) (h : BlockFile r n blocks)
    (i : Nat) (hi : i < blocks.length) : selectEventIndex r i = .ok blocks[i] := by
  obtain ⟨nd, h1, h2, -⟩ := h.node
  unfold selectEventIndex selectRows
  simp only [h.nPixels, h1, h2, Int.toNat_natCast]
  rw [show (i + 1) * n - i * n = n from by rw [Nat.succ_mul]; omega]
  rw [drop_take_flatten n blocks h.size i hi]

theorem blockFile_lookup (r : HReader (DRow β) ν) (n : Nat) (blocks : List (List (DRow β))) (h : BlockFile r n blocks) :
    eventLookup r = .ok (blocks.map blockId) := by
  obtain ⟨nd, h1, h2, h3⟩ := h.node
  unfold eventLookup
  simp only [h1, h3, h.nEvents, h.nPixels, Int.toNat_natCast, h2]
  rw [List.map_flatten]
  have hr := reshape_blocks n (blocks.map (List.map DRow.iev)) (by
    intro b hb
    obtain ⟨c, hc, rfl⟩ := List.mem_map.1 hb
    simp [h.size c hc])
  rw [List.length_map] at hr
  have hpos := h.pos
  simp only [hr, if_neg (show ¬ n = 0 by omega)]
  unfold firstColumn
  rw [mapM_ok _ _ (fun l => l.headD 0)]
  · rw [List.map_map]
    congr 1
    refine List.map_congr_left fun b hb => ?_
    have := h.size b hb
    cases b with
    | nil => simp at this; have := h.pos; omega
    | cons x b => simp [blockId]
  · intro l hl
    obtain ⟨c, hc, rfl⟩ := List.mem_map.1 hl
    have := h.size c hc
    cases c with
    | nil => simp at this; have := h.pos; omega
    | cons x b => rfl

theorem findIdx?_nodup {α : Type} [DecidableEq α] (l : List α) (hn : l.Nodup) (i : Nat) (hi : i < l.length) :
    l.findIdx? (fun x => x == l[i]) = some i := by
  rw [List.findIdx?_eq_some_iff_getElem]
  refine ⟨hi, by simp, fun j hj => ?_⟩
  simp only [beq_iff_eq]
  intro h
  have := (List.Nodup.getElem_inj_iff hn (hi := by omega) (hj := hi)).1 h
  omega

theorem blockFile_get (r : HReader (DRow β) ν) (n : Nat) (blocks : List (List (DRow β))) (h : BlockFile r n blocks)
    (hd : (blocks.map blockId).Nodup) :
    (∀ b ∈ blocks, dl1GetItem r (blockId b) = .ok b) ∧
    (∀ id : Int, (∀ b ∈ blocks, (blockId b : Int) ≠ id) → dl1GetItem r id = .error .indexError) := by
  constructor
  · intro b hb
    obtain ⟨i, hi, rfl⟩ := List.mem_iff_getElem.1 hb
    unfold dl1GetItem
    rw [blockFile_lookup r n blocks h]
    have := findIdx?_nodup (blocks.map blockId) hd i (by simpa using hi)
    simp only [List.getElem_map] at this
    have he : (fun (k : Nat) => (k : Int) == (blockId blocks[i] : Int)) = fun x => x == blockId blocks[i] := by
      funext k; rw [Bool.eq_iff_iff]; simp only [beq_iff_eq]; omega
    simp only [he, this]
    exact blockFile_select r n blocks h i hi
  · intro id hid
    unfold dl1GetItem
    rw [blockFile_lookup r n blocks h]
    have : (blocks.map blockId).findIdx? (fun (i : Nat) => (i : Int) == id) = none := by
      rw [List.findIdx?_eq_none_iff]
      intro x hx
      obtain ⟨b, hb, rfl⟩ := List.mem_map.1 hx
      simpa using hid b hb
    simp only [this]

end Verif.Lemmas
