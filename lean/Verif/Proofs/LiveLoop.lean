import Verif.Model.LiveLoop
import Verif.Spec.LiveLoop
import Verif.Proofs.Layer
import Verif.Proofs.Make
import Mathlib.Tactic.Tauto
/-!
# Helper lemmas: walking over a list that changes
-/
set_option autoImplicit false

namespace Verif
open Spec

theorem LiveLoop.unique {b : BpId} {body : Ref → M Unit} {i : Nat} {w : World} {o o' : Except Exc Unit × World}
    (h : LiveLoop b body i w o) (h' : LiveLoop b body i w o') : o = o' := by
  induction h with
  | stop h0 =>
    cases h' with
    | stop _ => rfl
    | raise h1 _ => rw [h0] at h1; cases h1
    | step h1 _ _ => rw [h0] at h1; cases h1
  | raise h1 h2 =>
    cases h' with
    | stop h0 => rw [h0] at h1; cases h1
    | raise h1' h2' => rw [h1] at h1'; cases h1'; rw [h2] at h2'; cases h2'; rfl
    | step h1' h2' _ => rw [h1] at h1'; cases h1'; rw [h2] at h2'; cases h2'
  | step h1 h2 _ ih =>
    cases h' with
    | stop h0 => rw [h0] at h1; cases h1
    | raise h1' h2' => rw [h1] at h1'; cases h1'; rw [h2] at h2'; cases h2'
    | step h1' h2' h3' => rw [h1] at h1'; cases h1'; rw [h2] at h2'; cases h2'; exact ih h3'

theorem Spec.Walked.congr {α : Type} {p q : α → Prop} {l k : List α} (h : Walked p l k)
    (hq : ∀ x ∈ l, (p x ↔ q x)) : Walked q l k := by
  induction h with
  | nil => exact .nil
  | last hx => exact .last ((hq _ (by simp)).1 hx)
  | skip hx _ ih => exact .skip ((hq _ (by simp)).1 hx) (ih (fun x h => hq x (by simp [h])))
  | keep hx _ ih => exact .keep (fun h => hx ((hq _ (by simp)).2 h)) (ih (fun x h => hq x (by simp [h])))

theorem Spec.Walked.sublist {α : Type} {p : α → Prop} {l k : List α} (h : Walked p l k) : k.Sublist l := by
  induction h with
  | nil => exact .refl _
  | last _ => exact List.nil_sublist _
  | skip _ _ ih => exact .cons _ (.cons_cons _ ih)
  | keep _ _ ih => exact .cons_cons _ ih

theorem Spec.Walked.unique {α : Type} {p : α → Prop} {l k k' : List α} (h : Walked p l k) (h' : Walked p l k') :
    k = k' := by
  induction h generalizing k' with
  | nil => cases h'; rfl
  | last hx =>
    cases h' with
    | last _ => rfl
    | keep hn _ => exact absurd hx hn
  | skip hx _ ih =>
    cases h' with
    | skip _ h' => rw [ih h']
    | keep hn _ => exact absurd hx hn
  | keep hn _ ih =>
    cases h' with
    | last hx => exact absurd hx hn
    | skip hx _ => exact absurd hx hn
    | keep _ h' => rw [ih h']

theorem walked_exists {α : Type} (p : α → Prop) : ∀ l : List α, ∃ k, Walked p l k
  | [] => ⟨_, .nil⟩
  | [x] => by
    by_cases hx : p x
    · exact ⟨_, .last hx⟩
    · exact ⟨_, .keep hx .nil⟩
  | x :: y :: l => by
    by_cases hx : p x
    · obtain ⟨k, hk⟩ := walked_exists p l
      exact ⟨_, .skip hx hk⟩
    · obtain ⟨k, hk⟩ := walked_exists p (y :: l)
      exact ⟨_, .keep hx hk⟩

theorem Spec.Dropped.refl {w : World} {b : BpId} : Dropped w w b (w.bp b).objs :=
  ⟨rfl, fun _ h h' => absurd h h', fun _ _ => rfl, rfl, fun _ _ => rfl, rfl, rfl⟩

theorem Spec.Dropped.trans {w v u : World} {b : BpId} {m k : List Ref} (h : Dropped w v b m) (h' : Dropped v u b k)
    (hm : ∀ r ∈ m, r ∈ (w.bp b).objs) (hk : ∀ r ∈ k, r ∈ m) : Dropped w u b k := by
  refine ⟨h'.objs, ?_, ?_, h'.rest.trans h.rest, fun c hc => (h'.others c hc).trans (h.others c hc),
    h'.env.trans h.env, h'.next.trans h.next⟩
  · intro r hr hn
    by_cases hrm : r ∈ m
    · rw [h'.detached r (by rw [h.objs]; exact hrm) hn, h.same r (.inr hrm)]
    · rw [h'.same r (.inl (by rw [h.objs]; exact hrm)), h.detached r hr hrm]
  · intro r hr
    rcases hr with hr | hr
    · rw [h'.same r (.inl (by rw [h.objs]; exact fun hm' => hr (hm r hm'))), h.same r (.inl hr)]
    · rw [h'.same r (.inr hr), h.same r (.inr (hk r hr))]

theorem without_dropped {w : World} {b : BpId} (rs : List Ref) :
    Dropped w (w.without b rs) b ((w.bp b).objs.filter (· ∉ rs)) ∨ ∃ r ∈ rs, r ∉ (w.bp b).objs := by
  by_cases h : ∃ r ∈ rs, r ∉ (w.bp b).objs
  · exact .inr h
  · left
    have h : ∀ r ∈ rs, r ∈ (w.bp b).objs := fun r hr => Classical.byContradiction (fun hn => h ⟨r, hr, hn⟩)
    refine ⟨by simp [World.without], ?_, ?_, by simp [World.without], ?_, rfl, rfl⟩
    · intro r hr hn
      simp only [List.mem_filter, hr, true_and, decide_eq_true_eq, Classical.not_not] at hn
      simp [World.without, hn]
    · intro r hr
      have : r ∉ rs := by
        rcases hr with hr | hr
        · exact fun h' => hr (h r h')
        · simpa using (List.mem_filter.1 hr).2
      simp [World.without, this]
    · intro c hc; simp [World.without, hc]

theorem dropped_one {w : World} {b : BpId} {pre l : List Ref} {r : Ref} (hn : (w.bp b).objs.Nodup)
    (ho : (w.bp b).objs = pre ++ r :: l) :
    ∃ v, layerRemove b (.ent r) w = (.ok (), v) ∧ Dropped w v b (pre ++ l) := by
  have hr : r ∈ (w.bp b).objs := by rw [ho]; simp
  refine ⟨_, layerDrop_mem hn hr, ?_⟩
  have hf : (w.bp b).objs.filter (· ∉ [r]) = pre ++ l := by
    rw [ho] at hn ⊢
    rw [List.nodup_append] at hn
    obtain ⟨-, h2, h3⟩ := hn
    rw [List.nodup_cons] at h2
    simp only [List.filter_append, List.mem_singleton]
    congr 1
    · rw [List.filter_eq_self]
      intro a ha
      simpa using h3 a ha r (by simp)
    · rw [List.filter_cons_of_neg (by simp), List.filter_eq_self]
      intro a ha
      have : a ≠ r := by rintro rfl; exact h2.1 ha
      simpa using this
  rcases without_dropped (w := w) (b := b) [r] with h | ⟨s, hs, hs'⟩
  · rwa [hf] at h
  · rw [List.mem_singleton.1 hs] at hs'; exact absurd hr hs'

theorem liveLoop_remove {b : BpId} {cond : Entity → Bool} {p : Ref → Prop} {l k : List Ref} (h : Walked p l k)
    {w : World} {pre : List Ref} (hn : (w.bp b).objs.Nodup) (ho : (w.bp b).objs = pre ++ l)
    (hp : ∀ r ∈ l, (p r ↔ cond (w.heap r) = true)) :
    ∃ w', LiveLoop b (removeIf b cond) pre.length w (.ok (), w') ∧ Dropped w w' b (pre ++ k) := by
  induction h generalizing w pre with
  | nil =>
    exact ⟨w, .stop (by rw [ho]; simp), by rw [← ho]; exact .refl⟩
  | @last x hx =>
    obtain ⟨v, hv, hd⟩ := dropped_one hn ho
    refine ⟨v, .step (r := x) (by rw [ho]; simp) ?_ (.stop (by rw [hd.objs]; simp)), hd⟩
    simp only [removeIf, (hp x (by simp)).1 hx, if_true]
    exact hv
  | @skip x y l k hx hw ih =>
    obtain ⟨v, hv, hd⟩ := dropped_one hn ho
    have hvn : (v.bp b).objs.Nodup := by
      rw [hd.objs]
      rw [ho] at hn
      exact hn.sublist (List.Sublist.append (.refl _) (.cons _ (.refl _)))
    obtain ⟨u, hu, hd'⟩ := ih (w := v) (pre := pre ++ [y]) hvn (by rw [hd.objs]; simp) (by
      intro r hr
      rw [hp r (by simp [hr]), hd.same r (.inr (by simp [hr]))])
    refine ⟨u, .step (r := x) (by rw [ho]; simp) ?_ (by simpa using hu), ?_⟩
    · simp only [removeIf, (hp x (by simp)).1 hx, if_true]
      exact hv
    · have := hd.trans hd' (by intro r hr; rw [ho]; simp only [List.mem_append, List.mem_cons] at hr ⊢; tauto)
        (by
          intro r hr
          have := hw.sublist.subset (a := r)
          simp only [List.mem_append, List.mem_cons, List.not_mem_nil, or_false] at hr ⊢; tauto)
      simpa using this
  | @keep x l k hx hw ih =>
    obtain ⟨u, hu, hd'⟩ := ih (w := w) (pre := pre ++ [x]) hn (by rw [ho]; simp) (fun r hr => hp r (by simp [hr]))
    refine ⟨u, .step (w' := w) (r := x) (by rw [ho]; simp) ?_ (by simpa using hu), by simpa using hd'⟩
    have : ¬ cond (w.heap x) = true := fun h => hx ((hp x (by simp)).2 h)
    simp [removeIf, this]

/-- A walk with a body that leaves the list alone is a walk over a copy. -/
theorem liveLoop_copy {b : BpId} {body : Ref → M Unit} (l pre : List Ref) (w : World)
    (ho : (w.bp b).objs = pre ++ l)
    (hb : ∀ r v, r ∈ l → (v.bp b).objs = (w.bp b).objs → ((body r v).2.bp b).objs = (v.bp b).objs) :
    LiveLoop b body pre.length w (M.forEach body l w) := by
  induction l generalizing pre w with
  | nil => exact .stop (by rw [ho]; simp)
  | cons r l ih =>
    have hg : (w.bp b).objs[pre.length]? = some r := by rw [ho]; simp
    have h1 := hb r w (by simp) rfl
    cases hx : body r w with
    | mk o v =>
      rw [hx] at h1
      cases o with
      | error x =>
        have : M.forEach body (r :: l) w = (.error x, v) := by
          show (M.bind (body r) _) w = _
          simp [M.bind, hx]
        rw [this]
        exact .raise hg hx
      | ok u =>
        have : M.forEach body (r :: l) w = M.forEach body l v := by
          show (M.bind (body r) _) w = _
          simp [M.bind, hx]
        rw [this]
        refine .step hg hx ?_
        have := ih (pre ++ [r]) v (by rw [h1, ho]; simp) (fun s u hs hu => hb s u (by simp [hs]) (hu.trans h1))
        simpa using this

/-- A walk whose body makes the list longer never ends. -/
theorem liveLoop_grow {b : BpId} {body : Ref → M Unit} (Inv : World → Prop)
    (hb : ∀ v r, Inv v → r ∈ (v.bp b).objs →
      ∃ v', body r v = (.ok (), v') ∧ Inv v' ∧ (v.bp b).objs.length < (v'.bp b).objs.length)
    {i : Nat} {w : World} {out : Except Exc Unit × World} (h : LiveLoop b body i w out) (hi : Inv w)
    (hl : i < (w.bp b).objs.length) : False := by
  induction h with
  | stop h0 => rw [List.getElem?_eq_none_iff] at h0; omega
  | raise h1 h2 =>
    obtain ⟨v', hv, -, -⟩ := hb _ _ hi (List.mem_of_getElem? h1)
    rw [h2] at hv; cases hv
  | step h1 h2 _ ih =>
    obtain ⟨v', hv, hv', hlt⟩ := hb _ _ hi (List.mem_of_getElem? h1)
    rw [h2] at hv; cases hv
    exact ih hv' (by omega)

theorem walked_length {α : Type} {p : α → Prop} {l k : List α} (h : Walked p l k) (q : α → Bool)
    (hq : ∀ x, q x = true ↔ ¬ p x) : (l.filter q).length ≤ k.length := by
  induction h with
  | nil => simp
  | @last x hx =>
    have : ¬ q x = true := by rw [hq]; exact not_not_intro hx
    simp [this]
  | @skip x y l k hx _ ih =>
    have : ¬ q x = true := by rw [hq]; exact not_not_intro hx
    rw [List.filter_cons_of_neg this]
    by_cases hy : q y = true
    · rw [List.filter_cons_of_pos hy]; simpa using ih
    · rw [List.filter_cons_of_neg hy]; simp only [List.length_cons]; omega
  | @keep x l k hx _ ih =>
    rw [List.filter_cons_of_pos ((hq x).2 hx)]; simpa using ih

theorem apart_cons {α : Type} {p : α → Prop} {x y : α} {l : List α} :
    Apart p (x :: y :: l) ↔ ¬ (p x ∧ p y) ∧ Apart p (y :: l) := by
  constructor
  · intro h
    exact ⟨h 0 x y rfl rfl, fun i a c ha hc => h (i + 1) a c ha hc⟩
  · rintro ⟨h1, h2⟩ i a c ha hc
    cases i with
    | zero => cases ha; cases hc; exact h1
    | succ i => exact h2 i a c ha hc

theorem apart_cons_neg {α : Type} {p : α → Prop} {x : α} {l : List α} (hx : ¬ p x) :
    Apart p (x :: l) ↔ Apart p l := by
  cases l with
  | nil => exact ⟨fun _ i a c ha _ => by simp at ha, fun _ i a c _ hc => by simp at hc⟩
  | cons y l => rw [apart_cons]; exact ⟨fun h => h.2, fun h => ⟨fun h' => hx h'.1, h⟩⟩

theorem walked_filter {α : Type} {p : α → Prop} {l k : List α} (h : Walked p l k) (q : α → Bool)
    (hq : ∀ x, q x = true ↔ ¬ p x) : l.filter q = k ↔ Apart p l := by
  induction h with
  | nil => exact ⟨fun _ i a c ha _ => by simp at ha, fun _ => rfl⟩
  | @last x hx =>
    have : ¬ q x = true := by rw [hq]; exact not_not_intro hx
    exact ⟨fun _ i a c _ hc => by simp at hc, fun _ => by simp [this]⟩
  | @skip x y l k hx hw ih =>
    have hqx : ¬ q x = true := by rw [hq]; exact not_not_intro hx
    rw [List.filter_cons_of_neg hqx, apart_cons]
    by_cases hy : p y
    · have hqy : ¬ q y = true := by rw [hq]; exact not_not_intro hy
      rw [List.filter_cons_of_neg hqy]
      refine ⟨fun he => ?_, fun ha => absurd ⟨hx, hy⟩ ha.1⟩
      have := walked_length hw q hq
      rw [he, List.length_cons] at this
      omega
    · rw [List.filter_cons_of_pos ((hq y).2 hy), apart_cons_neg hy, List.cons.injEq]
      exact ⟨fun he => ⟨fun h => hy h.2, ih.1 he.2⟩, fun ha => ⟨rfl, ih.2 ha.2⟩⟩
  | @keep x l k hx hw ih =>
    rw [List.filter_cons_of_pos ((hq x).2 hx), apart_cons_neg hx, List.cons.injEq]
    exact ⟨fun he => ih.1 he.2, fun ha => ⟨rfl, ih.2 ha⟩⟩

theorem forEach_removeIf {b : BpId} {cond : Entity → Bool} (rs : List Ref) (w : World)
    (hn : (w.bp b).objs.Nodup) (hr : rs.Nodup) (h : ∀ r ∈ rs, r ∈ (w.bp b).objs) :
    ∃ w', M.forEach (removeIf b cond) rs w = (.ok (), w') ∧
      Dropped w w' b ((w.bp b).objs.filter (fun r => !(decide (r ∈ rs) && cond (w.heap r)))) := by
  induction rs generalizing w with
  | nil =>
    refine ⟨w, rfl, ?_⟩
    have : (w.bp b).objs.filter (fun r => !(decide (r ∈ ([] : List Ref)) && cond (w.heap r))) = (w.bp b).objs := by
      rw [List.filter_eq_self]; simp
    rw [this]; exact .refl
  | cons s rs ih =>
    have hr' := List.nodup_cons.1 hr
    have hs := h s (by simp)
    by_cases hc : cond (w.heap s) = true
    · have h1 : removeIf b cond s w = (.ok (), w.without b [s]) := by
        simp only [removeIf, hc, if_true]; exact layerDrop_mem hn hs
      have hd : Dropped w (w.without b [s]) b ((w.bp b).objs.filter (· ∉ [s])) := by
        rcases without_dropped (w := w) (b := b) [s] with h | ⟨t, ht, ht'⟩
        · exact h
        · rw [List.mem_singleton.1 ht] at ht'; exact absurd hs ht'
      obtain ⟨u, hu, hd'⟩ := ih (w.without b [s]) (by rw [hd.objs]; exact hn.filter _) hr'.2 (by
        intro r hrs
        rw [hd.objs]
        simp only [List.mem_filter, List.mem_singleton, decide_eq_true_eq]
        exact ⟨h r (by simp [hrs]), by rintro rfl; exact hr'.1 hrs⟩)
      refine ⟨u, ?_, ?_⟩
      · show (M.bind (removeIf b cond s) _) w = _
        simp only [M.bind, h1]; exact hu
      · have ht := hd.trans hd' (fun r hr => (List.mem_filter.1 hr).1) (by
          intro r hr
          rw [hd.objs] at hr
          exact (List.mem_filter.1 hr).1)
        rw [hd.objs, List.filter_filter] at ht
        refine (congrArg (Dropped w u b) (List.filter_congr ?_)).mp ht
        intro r _
        by_cases e : r = s
        · subst e; simp [hc]
        · simp [World.without, e]
    · have h1 : removeIf b cond s w = (.ok (), w) := by simp [removeIf, hc]
      obtain ⟨u, hu, hd'⟩ := ih w hn hr'.2 (fun r hrs => h r (by simp [hrs]))
      refine ⟨u, ?_, ?_⟩
      · show (M.bind (removeIf b cond s) _) w = _
        simp only [M.bind, h1]; exact hu
      · refine (congrArg (Dropped w u b) (List.filter_congr ?_)).mp hd'
        intro r _
        by_cases e : r = s
        · subst e; simp [hc]
        · simp [e]

theorem layerMake_custom {b : BpId} {kw : Dict} {w w' : World} {r : Ref} (h : layerMake b kw w = (.ok r, w')) :
    w'.env = w.env ∧ (w'.bp b).custom = (w.bp b).custom := by
  unfold layerMake at h
  obtain ⟨s, v, hn, h⟩ := M.bind_eq_ok.1 h
  obtain ⟨e, he, rfl, rfl⟩ := newEntity_ok hn
  obtain ⟨_, u, ha, h⟩ := M.bind_eq_ok.1 h
  cases h
  obtain ⟨-, ⟨-, rfl⟩ | ⟨-, rfl⟩⟩ := layerAdd_cases ha
  · exact ⟨rfl, rfl⟩
  · refine ⟨rfl, ?_⟩
    simp [World.sort, World.listed, World.setEnt]

end Verif
