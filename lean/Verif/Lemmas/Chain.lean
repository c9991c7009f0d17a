import Verif.Py.DictLemmas
import Verif.Spec.Chain

namespace Verif.Lemmas

open Verif.Py Verif.Model Verif.Spec

variable {V σ ω β : Type}

theorem mem_active (truthy : V → Bool) (cols : List String) (cfg : Config V) (c : String) :
    c ∈ getActiveColumns truthy cols true cfg ↔ c ∈ cols ∧ Enabled truthy cfg c := by
  unfold getActiveColumns Enabled
  simp only [List.mem_filter]
  cases h : Dict.get? cfg c <;> simp

theorem getDictLoop_ok (r : Reducer V σ ω β) (s : σ) (cs : List String) (d out : Dict String β)
    (h : getDictLoop r s cs d = .ok out) (c : String) :
    (c ∈ cs → ∃ v, r.cls.value r.kwargs s c = .ok v ∧ Dict.get? out c = some v)
    ∧ (c ∉ cs → Dict.get? out c = Dict.get? d c) := by
  induction cs generalizing d with
  | nil => simp [getDictLoop] at h; subst h; simp
  | cons x cs ih =>
    simp only [getDictLoop] at h
    split at h
    · simp at h
    · rename_i v hv
      obtain ⟨h1, h2⟩ := ih _ h
      by_cases hc : c ∈ cs
      · exact ⟨fun _ => h1 hc, fun hn => absurd (List.mem_cons_of_mem _ hc) hn⟩
      · refine ⟨fun hm => ?_, fun hn => ?_⟩
        · rcases List.mem_cons.1 hm with rfl | hm
          · exact ⟨v, hv, by rw [h2 hc]; simp⟩
          · exact absurd hm hc
        · rw [h2 hc, Dict.get?_set_ne]
          rintro rfl; exact hn (by simp)

theorem process_ok (r r' : Reducer V σ ω β) (w : ω) (out : Dict String β) (h : r.process w = .ok (r', out))
    (hsub : ∀ c ∈ r.active, c ∈ r.cls.columns) :
    r'.cls = r.cls ∧ r'.kwargs = r.kwargs ∧ r'.active = r.active ∧
    (∀ c, c ∉ r.active → Dict.get? out c = none) ∧
    (∀ c ∈ r.active, ∃ s v, r.cls.prepare r.kwargs r.state w = .ok s ∧ r.cls.value r.kwargs s c = .ok v
      ∧ Dict.get? out c = some v ∧ r'.state = r.cls.post r.kwargs s) := by
  unfold Reducer.process at h
  split at h
  · rename_i he
    simp at h; obtain ⟨rfl, rfl⟩ := h
    refine ⟨rfl, rfl, rfl, by simp, fun c hc => ?_⟩
    have := hsub c hc
    simp [List.isEmpty_iff] at he
    simp [he] at this
  · split at h
    · simp at h
    · rename_i s hs
      split at h
      · simp at h
      · rename_i d hd
        simp at h; obtain ⟨rfl, rfl⟩ := h
        refine ⟨rfl, rfl, rfl, fun c hc => ?_, fun c hc => ?_⟩
        · rw [(getDictLoop_ok _ _ _ _ _ hd c).2 hc]; rfl
        · obtain ⟨v, h1, h2⟩ := (getDictLoop_ok _ _ _ _ _ hd c).1 hc
          exact ⟨s, v, hs, h1, h2, rfl⟩

theorem process_nodup (r r' : Reducer V σ ω β) (w : ω) (out : Dict String β) (h : r.process w = .ok (r', out)) :
    (Dict.keys out).Nodup := by
  have key : ∀ (s : σ) (cs : List String) (d o : Dict String β), (Dict.keys d).Nodup →
      getDictLoop r s cs d = .ok o → (Dict.keys o).Nodup := by
    intro s cs
    induction cs with
    | nil => intro d o hd h; simp [getDictLoop] at h; subst h; exact hd
    | cons x cs ih =>
      intro d o hd h
      simp only [getDictLoop] at h
      split at h
      · simp at h
      · exact ih _ _ (Dict.nodup_keys_set _ _ _ hd) h
  unfold Reducer.process at h
  split at h
  · simp at h; obtain ⟨rfl, rfl⟩ := h; simp [Dict.keys]
  · split at h
    · simp at h
    · split at h
      · simp at h
      · rename_i d hd
        simp at h; obtain ⟨rfl, rfl⟩ := h
        exact key _ _ _ _ (by simp [Dict.keys]) hd

/-- what the chain keeps from event to event -/
def sig (r : Reducer V σ ω β) : ReducerClass V σ ω β × Config V × List String := (r.cls, r.kwargs, r.active)

def Sub (r : Reducer V σ ω β) : Prop := ∀ c ∈ r.active, c ∈ r.cls.columns

theorem chainLoop_keys (rs rs' : List (Reducer V σ ω β)) (w : ω) (d d' : Dict String β)
    (h : chainLoop rs w d = .ok (rs', d')) (hs : ∀ r ∈ rs, Sub r) :
    rs'.map sig = rs.map sig ∧
    (∀ c, c ∈ Dict.keys d' ↔ c ∈ Dict.keys d ∨ ∃ r ∈ rs, c ∈ r.active) ∧
    (∀ c, (∀ r ∈ rs, c ∉ r.active) → Dict.get? d' c = Dict.get? d c) := by
  induction rs generalizing d rs' with
  | nil => simp [chainLoop] at h; obtain ⟨rfl, rfl⟩ := h; simp
  | cons r rs ih =>
    simp only [chainLoop] at h
    split at h
    · simp at h
    · rename_i r' out hp
      split at h
      · simp at h
      · rename_i rs'' d'' hl
        simp at h; obtain ⟨rfl, rfl⟩ := h
        obtain ⟨i1, i2, i3⟩ := ih _ _ hl (fun r hr => hs r (by simp [hr]))
        obtain ⟨p1, p2, p3, p4, p5⟩ := process_ok _ _ _ _ hp (hs r (by simp))
        have hn := process_nodup _ _ _ _ hp
        have hk : ∀ c, c ∈ Dict.keys out ↔ c ∈ r.active := by
          intro c
          rw [Dict.mem_keys_iff]
          constructor
          · rintro ⟨v, hv⟩
            by_contra hc
            rw [p4 c hc] at hv; simp at hv
          · intro hc
            obtain ⟨s, v, -, -, h3, -⟩ := p5 c hc
            exact ⟨v, h3⟩
        refine ⟨?_, fun c => ?_, fun c hc => ?_⟩
        · simp [i1, sig, p1, p2, p3]
        · rw [i2, Dict.mem_keys_update, hk]
          simp only [List.mem_cons, exists_eq_or_imp]
          tauto
        · rw [i3 c (fun r hr => hc r (by simp [hr])), Dict.get?_update _ _ _ hn, p4 c (hc r (by simp))]
          simp

theorem chainLoop_append (a b : List (Reducer V σ ω β)) (w : ω) (d d' : Dict String β) (rs : List (Reducer V σ ω β))
    (h : chainLoop (a ++ b) w d = .ok (rs, d')) :
    ∃ a' b' d1, chainLoop a w d = .ok (a', d1) ∧ chainLoop b w d1 = .ok (b', d') ∧ rs = a' ++ b' := by
  induction a generalizing d rs with
  | nil => exact ⟨[], rs, d, rfl, h, rfl⟩
  | cons r a ih =>
    simp only [List.cons_append, chainLoop] at h ⊢
    split at h
    · simp at h
    · rename_i r' out hp
      split at h
      · simp at h
      · rename_i rs'' d'' hl
        simp at h; obtain ⟨rfl, rfl⟩ := h
        obtain ⟨a', b', d1, h1, h2, rfl⟩ := ih _ _ hl
        exact ⟨r' :: a', b', d1, by rw [h1], h2, rfl⟩

theorem forall_sig {rs rs' : List (Reducer V σ ω β)} (h : rs'.map sig = rs.map sig)
    {P : ReducerClass V σ ω β × Config V × List String → Prop} (hp : ∀ r ∈ rs, P (sig r)) :
    ∀ r ∈ rs', P (sig r) := by
  intro r hr
  have : sig r ∈ rs'.map sig := List.mem_map_of_mem hr
  rw [h] at this
  obtain ⟨q, hq, e⟩ := List.mem_map.1 this
  rw [← e]; exact hp q hq

theorem chainEvents_value (pre post : List (Reducer V σ ω β)) (r : Reducer V σ ω β) (c : String)
    (hc : c ∈ r.active) (hr : Sub r) (hpre : ∀ q ∈ pre, Sub q ∧ c ∉ q.active) (hpost : ∀ q ∈ post, Sub q ∧ c ∉ q.active)
    (ws : List ω) (fin : List (Reducer V σ ω β)) (outs : List (Dict String β))
    (h : chainEvents (pre ++ r :: post) ws = .ok (fin, outs)) :
    ∃ vs : List β, soloColumn r.cls r.kwargs c r.state ws = vs.map .ok ∧
      outs.map (Dict.get? · c) = vs.map some := by
  induction ws generalizing pre post r outs with
  | nil => simp [chainEvents] at h; obtain ⟨-, rfl⟩ := h; exact ⟨[], rfl, rfl⟩
  | cons w ws ih =>
    simp only [chainEvents] at h
    split at h
    · simp at h
    · rename_i ch d hl
      split at h
      · simp at h
      · rename_i ch'' ds hrec
        simp at h; obtain ⟨rfl, rfl⟩ := h
        obtain ⟨a', b', d1, h1, h2, rfl⟩ := chainLoop_append _ _ _ _ _ _ hl
        simp only [chainLoop] at h2
        split at h2
        · simp at h2
        · rename_i r' out hp
          split at h2
          · simp at h2
          · rename_i rs'' d'' hl2
            simp at h2; obtain ⟨rfl, rfl⟩ := h2
            obtain ⟨p1, p2, p3, p4, p5⟩ := process_ok _ _ _ _ hp hr
            have hn := process_nodup _ _ _ _ hp
            obtain ⟨k1, -, -⟩ := chainLoop_keys _ _ _ _ _ h1 (fun q hq => (hpre q hq).1)
            obtain ⟨k2, -, k2'⟩ := chainLoop_keys _ _ _ _ _ hl2 (fun q hq => (hpost q hq).1)
            obtain ⟨s, v, q1, q2, q3, q4⟩ := p5 c hc
            have hrec' := ih a' rs'' r' (by rw [p3]; exact hc) (by unfold Sub; rw [p3, p1]; exact hr)
              (forall_sig k1 (P := fun t => (∀ x ∈ t.2.2, x ∈ t.1.columns) ∧ c ∉ t.2.2) hpre)
              (forall_sig k2 (P := fun t => (∀ x ∈ t.2.2, x ∈ t.1.columns) ∧ c ∉ t.2.2) hpost) ds hrec
            obtain ⟨vs, e1, e2⟩ := hrec'
            refine ⟨v :: vs, ?_, ?_⟩
            · simp only [soloColumn, q1, q2, List.map_cons]
              rw [p1, p2, q4] at e1
              rw [e1]
            · simp only [List.map_cons, e2]
              congr 1
              rw [k2' c (fun q hq => (hpost q hq).2), Dict.get?_update _ _ _ hn, q3]; rfl

theorem buildLoop_ok (truthy : V → Bool) (cfg : Config V) (cs : List (ReducerClass V σ ω β))
    (rs : List (Reducer V σ ω β)) (h : buildLoop truthy cfg cs = .ok rs) :
    rs.map Reducer.cls = cs.filter (fun c => (getActiveColumns truthy c.columns true cfg).length > 0) ∧
    ∀ r ∈ rs, r.kwargs = cfg ∧ r.active = getActiveColumns truthy r.cls.columns true cfg ∧ r.cls.init cfg = .ok r.state := by
  induction cs generalizing rs with
  | nil => simp [buildLoop] at h; subst h; simp
  | cons c cs ih =>
    simp only [buildLoop] at h
    split at h
    · rename_i hlen
      split at h
      · simp at h
      · rename_i r hi
        split at h
        · simp at h
        · rename_i rs' hrs
          simp at h; subst h
          obtain ⟨i1, i2⟩ := ih _ hrs
          have hr : r.cls = c ∧ r.kwargs = cfg ∧ r.active = getActiveColumns truthy r.cls.columns true cfg ∧
              r.cls.init cfg = .ok r.state := by
            simp only [instantiate] at hi
            split at hi
            · simp at hi
            split at hi
            · simp at hi
            · rename_i s hs
              simp at hi; subst hi
              exact ⟨rfl, rfl, rfl, hs⟩
          refine ⟨?_, ?_⟩
          · rw [List.filter_cons_of_pos (by simpa using hlen)]
            simp [hr.1, i1]
          · intro q hq
            rcases List.mem_cons.1 hq with rfl | hq
            · exact hr.2
            · exact i2 q hq
    · rename_i hlen
      rw [List.filter_cons_of_neg (by simpa using hlen)]
      exact ih _ h

theorem buildLoop_filter (truthy : V → Bool) (cfg : Config V) (cs : List (ReducerClass V σ ω β)) :
    buildLoop truthy cfg cs = buildLoop truthy cfg (cs.filter fun c => c.columns.any fun x =>
      match Dict.get? cfg x with | some v => truthy v | none => false) := by
  have hiff : ∀ c : ReducerClass V σ ω β, (getActiveColumns truthy c.columns true cfg).length > 0 ↔
      (c.columns.any fun x => match Dict.get? cfg x with | some v => truthy v | none => false) = true := by
    intro c
    rw [gt_iff_lt, List.length_pos_iff_exists_mem]
    simp only [mem_active, List.any_eq_true, Enabled]
    constructor
    · rintro ⟨x, hx, v, h1, h2⟩; exact ⟨x, hx, by simp [h1, h2]⟩
    · rintro ⟨x, hx, h⟩
      refine ⟨x, hx, ?_⟩
      revert h
      cases Dict.get? cfg x <;> simp
  induction cs with
  | nil => rfl
  | cons c cs ih =>
    by_cases h : (getActiveColumns truthy c.columns true cfg).length > 0
    · have h' := (hiff c).1 h
      simp only [List.filter_cons, h', if_true, buildLoop, h, ih]
    · have h' := fun hh => h ((hiff c).2 hh)
      simp only [List.filter_cons, buildLoop, h, if_false, ih]
      rw [if_neg h']

theorem flatMap_sublist {α γ : Type} (f : α → List γ) {l₁ l₂ : List α} (h : l₁.Sublist l₂) :
    (l₁.flatMap f).Sublist (l₂.flatMap f) := by
  induction h with
  | slnil => exact List.Sublist.refl _
  | cons a _ ih => rw [List.flatMap_cons]; exact ih.trans (List.sublist_append_right _ _)
  | cons_cons a _ ih => rw [List.flatMap_cons, List.flatMap_cons]; exact ih.append_left _

theorem get?_erase_ne {κ ν : Type} [DecidableEq κ] (d : Dict κ ν) (k k' : κ) (h : k ≠ k') :
    Dict.get? (Dict.erase d k) k' = Dict.get? d k' := by
  induction d with
  | nil => rfl
  | cons x d ih =>
    obtain ⟨a, b⟩ := x
    simp only [Dict.erase]
    split <;> simp_all [Dict.get?_cons]

theorem keys_mem_erase {κ ν : Type} [DecidableEq κ] (d : Dict κ ν) (k : κ) (h : (Dict.keys d).Nodup) :
    Dict.get? (Dict.erase d k) k = none := by
  induction d with
  | nil => rfl
  | cons x d ih =>
    obtain ⟨a, b⟩ := x
    simp only [Dict.keys, List.map_cons, List.nodup_cons] at h
    simp only [Dict.erase]
    split
    · rename_i hk
      subst hk
      exact (Dict.get?_eq_none_iff d a).2 h.1
    · rename_i hk
      rw [Dict.get?_cons, if_neg hk]
      exact ih h.2

theorem chainEvents_keys (ch : List (Reducer V σ ω β)) (ws : List ω) (fin : List (Reducer V σ ω β))
    (outs : List (Dict String β)) (h : chainEvents ch ws = .ok (fin, outs)) (hs : ∀ r ∈ ch, Sub r) :
    outs.length = ws.length ∧ ∀ d ∈ outs, ∀ c, c ∈ Dict.keys d ↔ ∃ r ∈ ch, c ∈ r.active := by
  induction ws generalizing ch outs with
  | nil => simp [chainEvents] at h; obtain ⟨-, rfl⟩ := h; simp
  | cons w ws ih =>
    simp only [chainEvents] at h
    split at h
    · simp at h
    · rename_i ch' d hl
      split at h
      · simp at h
      · rename_i ch'' ds hrec
        simp at h; obtain ⟨rfl, rfl⟩ := h
        obtain ⟨k1, k2, -⟩ := chainLoop_keys _ _ _ _ _ hl hs
        obtain ⟨i1, i2⟩ := ih ch' ds hrec (forall_sig k1 (P := fun t => ∀ x ∈ t.2.2, x ∈ t.1.columns) hs)
        refine ⟨by simp [i1], fun e he c => ?_⟩
        rcases List.mem_cons.1 he with rfl | he
        · rw [k2]; simp [Dict.keys]
        · rw [i2 e he c]
          have hmem : (∃ t ∈ ch'.map sig, c ∈ t.2.2) ↔ ∃ t ∈ ch.map sig, c ∈ t.2.2 := by rw [k1]
          simpa [sig] using hmem

theorem chainLoop_total (ch : List (Reducer V σ ω β)) (w : ω) (d : Dict String β) :
    (∀ e, chainLoop ch w d = .error e → ∃ r ∈ ch, r.process w = .error e) ∧
    ((∀ r ∈ ch, ∃ x, r.process w = .ok x) → ∃ x, chainLoop ch w d = .ok x) := by
  induction ch generalizing d with
  | nil => exact ⟨fun e h => by simp [chainLoop] at h, fun _ => ⟨_, rfl⟩⟩
  | cons r rs ih =>
    constructor
    · intro e h
      simp only [chainLoop] at h
      split at h
      · rename_i e' hp
        simp at h; subst h
        exact ⟨r, by simp, hp⟩
      · rename_i r' out hp
        split at h
        · rename_i e' hl
          simp at h; subst h
          obtain ⟨q, hq, hh⟩ := (ih _).1 _ hl
          exact ⟨q, by simp [hq], hh⟩
        · simp at h
    · intro h
      obtain ⟨⟨r', out⟩, hp⟩ := h r (by simp)
      obtain ⟨⟨rs', d'⟩, hl⟩ := (ih (Dict.update d out)).2 (fun q hq => h q (by simp [hq]))
      exact ⟨(r' :: rs', d'), by simp only [chainLoop, hp, hl]⟩

end Verif.Lemmas
