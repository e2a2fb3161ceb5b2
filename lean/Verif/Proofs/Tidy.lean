import Verif.Spec.Tidy
import Verif.Spec.Reload
import Verif.Proofs.LoadBase
import Verif.Proofs.Make
import Verif.Proofs.WireExport
import Verif.Proofs.Color
/-!
# Numbers, order, schedules and colours after a history of calls
-/
set_option autoImplicit false

namespace Verif
open Spec

theorem Spec.RunOf.reachable {P : World → Op → Prop} {env : Env} {w : World} (h : RunOf P env w) : Reachable env w := by
  induction h with
  | init => exact .init
  | step op _ hr _ ih => exact .step op ih hr

theorem Spec.RunOf.mono {P Q : World → Op → Prop} (hpq : ∀ w op, P w op → Q w op) {env : Env} {w : World}
    (h : RunOf P env w) : RunOf Q env w := by
  induction h with
  | init => exact .init
  | step op _ hr hp ih => exact .step op ih hr (hpq _ _ hp)

theorem EntEff.auto {n v : Bool} {env : Env} {e e' : Entity} (h : EntEff n v env e e') : e'.auto = e.auto := by
  cases h with
  | rotate n a d => obtain ⟨_, _, _, hf⟩ := Entity.rotate_frame e n a d; rw [hf]
  | setName c v => obtain ⟨_, _, _, hf⟩ := Entity.setName_frame env c e v; rw [hf]
  | setPos p => rfl
  | setDir v d _ => rfl
  | setClass base ms k hb hk => rfl
  | setNumber n => rfl
  | setOri v o h ht => rfl
  | setAttr k v => obtain ⟨_, hf⟩ := Entity.setAttr_frame env e k v; rw [hf]
  | setControl k v => obtain ⟨_, hf⟩ := Entity.setControl_frame env e k v; rw [hf]
  | newControl v => obtain ⟨_, hf⟩ := Entity.newControl_frame env e v; rw [hf]

theorem EntEff.pos {n : Bool} {env : Env} {e e' : Entity} (h : EntEff n false env e e') : e'.pos = e.pos := by
  cases h with
  | rotate n a d h => cases h
  | setName c v => obtain ⟨_, _, _, hf⟩ := Entity.setName_frame env c e v; rw [hf]
  | setPos p h => cases h
  | setDir v d _ => rfl
  | setClass base ms k hb hk => rfl
  | setNumber n => rfl
  | setOri v o h ht => rfl
  | setAttr k v => obtain ⟨_, hf⟩ := Entity.setAttr_frame env e k v; rw [hf]
  | setControl k v => obtain ⟨_, hf⟩ := Entity.setControl_frame env e k v; rw [hf]
  | newControl v => obtain ⟨_, hf⟩ := Entity.newControl_frame env e v; rw [hf]

/-! ## Layers that a call leaves alone -/

theorem Spec.DistinctNumbers.congr {w w' : World} {b : BpId} (h : DistinctNumbers w b) (ho : (w'.bp b).objs.Sublist (w.bp b).objs)
    (ha : ∀ r ∈ (w'.bp b).objs, (w'.heap r).auto = (w.heap r).auto) : DistinctNumbers w' b := by
  refine ⟨fun r hr => ?_, fun r hr s hs he => ?_⟩
  · rw [ha r hr]; exact h.present r (ho.subset hr)
  · rw [ha r hr, ha s hs] at he
    exact h.distinct r (ho.subset hr) s (ho.subset hs) he

theorem Sorted.congr {w w' : World} {b : BpId} (h : Sorted w b) (ho : (w'.bp b).objs.Sublist (w.bp b).objs)
    (ha : ∀ r ∈ (w'.bp b).objs, (w'.heap r).pos = (w.heap r).pos) : Sorted w' b := by
  unfold Sorted at *
  refine (h.sublist ho).imp_of_mem ?_
  intro r s hr hs hb
  rwa [ha r hr, ha s hs]

theorem InOrder.numbers {w : World} {b : BpId} {l : List Ref} (h : InOrder w b l) : DistinctNumbers w b := by
  refine ⟨fun r hr => ?_, fun r hr s hs he => ?_⟩
  · obtain ⟨i, hi, rfl⟩ := List.getElem_of_mem hr
    exact ⟨_, h.numbered i hi⟩
  · obtain ⟨i, hi, rfl⟩ := List.getElem_of_mem hr
    obtain ⟨j, hj, rfl⟩ := List.getElem_of_mem hs
    rw [h.numbered i hi, h.numbered j hj] at he
    have : i = j := by
      have := Option.some.inj he
      omega
    subst this
    rfl

theorem Owned.disjoint {w : World} (h : Owned w) {b c : BpId} (hbc : c ≠ b) {s : Ref} (hs : s ∈ (w.bp c).objs) :
    s ∉ (w.bp b).objs := by
  intro hs'
  have := h.layer c s hs
  rw [h.layer b s hs'] at this
  exact hbc (Option.some.inj this).symm

/-- Effects of calls that list no further entity keep numbers. -/
theorem Prim.numbered {k : Kind} (hk : k.appends = false) {w w' : World} (ho : Owned w) (h : ∀ b, DistinctNumbers w b)
    (hp : Prim k w w') (c : BpId) : DistinctNumbers w' c := by
  have key : ∀ (b : BpId) (p : Bp), p.objs.Sublist (w.bp b).objs → DistinctNumbers (w.setBp b p) c := by
    intro b p hp
    refine (h c).congr ?_ (fun _ _ => rfl)
    rw [setBp_bp]
    split
    · rename_i e; subst e; exact hp
    · exact List.Sublist.refl _
  cases hp with
  | ent r e he =>
    refine (h c).congr (List.Sublist.refl _) (fun s _ => ?_)
    rw [setEnt_heap]
    split
    · rename_i e'; subst e'; exact he.auto
    · rfl
  | env e => exact ⟨(h c).present, (h c).distinct⟩
  | bp b p h1 h2 h3 _ => exact key b p (h1 ▸ List.Sublist.refl _)
  | sort b =>
    by_cases e : c = b
    · subst e; exact InOrder.numbers (sort_inOrder w c (ho.nodup c))
    · refine (h c).congr ?_ (fun s hs => ?_)
      · rw [sort_bp_other e]
      · rw [sort_bp_other e] at hs
        rw [sort_heap_other (ho.disjoint e hs)]
  | noConns b => exact key b _ (List.Sublist.refl _)
  | addConn b r c' _ => exact key b _ (List.Sublist.refl _)
  | orient b r => exact key b _ (List.Sublist.refl _)
  | flip b i => exact key b _ (List.Sublist.refl _)
  | flipColor b i _ => exact key b _ (List.Sublist.refl _)
  | alloc l e _ =>
    refine (h c).congr (List.Sublist.refl _) (fun s hs => ?_)
    show (if s = w.next then e else w.heap s).auto = _
    rw [if_neg (Nat.ne_of_lt (ho.exist c s hs))]
  | load b e he ha => rw [hk] at ha; cases ha
  | add b r hr hl hn ha => rw [hk] at ha; cases ha
  | drop b r hr =>
    refine (h c).congr ?_ (fun s _ => ?_)
    · rw [setEnt_bp, setBp_bp]
      split
      · rename_i e; subst e; exact List.erase_sublist
      · exact List.Sublist.refl _
    · rw [setEnt_heap]
      split
      · rename_i e; subst e; rfl
      · rfl

/-- Effects of calls that list no further entity and move none keep the order. -/
theorem Prim.sorted {k : Kind} (hk : k.appends = false) (hm : k.moves = false) {w w' : World} (ho : Owned w)
    (h : ∀ b, Sorted w b) (hp : Prim k w w') (c : BpId) : Sorted w' c := by
  have key : ∀ (b : BpId) (p : Bp), p.objs.Sublist (w.bp b).objs → Sorted (w.setBp b p) c := by
    intro b p hp
    refine Sorted.congr (h c) ?_ (fun _ _ => rfl)
    rw [setBp_bp]
    split
    · rename_i e; subst e; exact hp
    · exact List.Sublist.refl _
  cases hp with
  | ent r e he =>
    refine Sorted.congr (h c) (List.Sublist.refl _) (fun s _ => ?_)
    rw [setEnt_heap]
    split
    · rename_i e'; subst e'; rw [hm] at he; exact he.pos
    · rfl
  | env e => exact h c
  | bp b p h1 h2 h3 _ => exact key b p (h1 ▸ List.Sublist.refl _)
  | sort b =>
    by_cases e : c = b
    · subst e; exact (sort_inOrder w c (ho.nodup c)).sorted
    · refine Sorted.congr (h c) ?_ (fun s hs => ?_)
      · rw [sort_bp_other e]
      · rw [sort_bp_other e] at hs
        rw [sort_heap_other (ho.disjoint e hs)]
  | noConns b => exact key b _ (List.Sublist.refl _)
  | addConn b r c' _ => exact key b _ (List.Sublist.refl _)
  | orient b r => exact key b _ (List.Sublist.refl _)
  | flip b i => exact key b _ (List.Sublist.refl _)
  | flipColor b i _ => exact key b _ (List.Sublist.refl _)
  | alloc l e _ =>
    refine Sorted.congr (h c) (List.Sublist.refl _) (fun s hs => ?_)
    show (if s = w.next then e else w.heap s).pos = _
    rw [if_neg (Nat.ne_of_lt (ho.exist c s hs))]
  | load b e he ha => rw [hk] at ha; cases ha
  | add b r hr hl hn ha => rw [hk] at ha; cases ha
  | drop b r hr =>
    refine Sorted.congr (h c) ?_ (fun s _ => ?_)
    · rw [setEnt_bp, setBp_bp]
      split
      · rename_i e; subst e; exact List.erase_sublist
      · exact List.Sublist.refl _
    · rw [setEnt_heap]
      split
      · rename_i e; subst e; rfl
      · rfl

/-- Effects of calls that take no entity out keep schedules within the blueprint. -/
theorem Prim.schedules {k : Kind} (hk : k.removes = false) {w w' : World} (h : ∀ b, SchedulesListed w b)
    (hp : Prim k w w') (c : BpId) : SchedulesListed w' c := by
  have key : ∀ (b : BpId) (p : Bp), (p.schedules = (w.bp b).schedules ∨ ∀ s ∈ p.schedules, s ∈ (w.bp b).schedules ∨ ∀ r ∈ s.1, r ∈ (w.bp b).objs) →
      (∀ r ∈ (w.bp b).objs, r ∈ p.objs) → SchedulesListed (w.setBp b p) c := by
    intro b p hs hsub s hs' r hr
    rw [setBp_bp] at hs' ⊢
    split
    · rename_i e
      subst e
      rw [if_pos rfl] at hs'
      rcases hs with hs | hs
      · rw [hs] at hs'; exact hsub r (h c s hs' r hr)
      · exact hsub r ((hs s hs').elim (fun hm => h c s hm r hr) (fun hl => hl r hr))
    · rename_i e
      rw [if_neg e] at hs'
      exact h c s hs' r hr
  cases hp with
  | ent r e he => exact h c
  | env e => exact h c
  | bp b p h1 h2 h3 _ h5 => exact key b p h5.schedules (fun r hr => h1 ▸ hr)
  | sort b =>
    intro s hs r hr
    by_cases e : c = b
    · subst e
      rw [sort_bp_self] at hs
      exact (sort_objs_perm w c).mem_iff.2 (h c s hs r hr)
    · rw [sort_bp_other e] at hs ⊢
      exact h c s hs r hr
  | noConns b => exact key b _ (.inl rfl) (fun _ h => h)
  | addConn b r c' _ => exact key b _ (.inl rfl) (fun _ h => h)
  | orient b r => exact key b _ (.inl rfl) (fun _ h => h)
  | flip b i => exact key b _ (.inl rfl) (fun _ h => h)
  | flipColor b i _ => exact key b _ (.inl rfl) (fun _ h => h)
  | alloc l e _ => exact h c
  | load b e he ha => exact key b _ (.inl rfl) (fun _ h => List.mem_append_left _ h)
  | add b r hr hl hn ha => exact key b _ (.inl rfl) (fun _ h => List.mem_append_left _ h)
  | drop b r hr hx => rw [hk] at hx; cases hx

/-- Label colours were made by the constructor. -/
theorem Prim.colors {k : Kind} {w w' : World} (h : ∀ b c, (w.bp b).labelColor = some c → c.Made)
    (hp : Prim k w w') (b' : BpId) : ∀ c, (w'.bp b').labelColor = some c → c.Made := by
  have key : ∀ (b : BpId) (p : Bp), (p.labelColor = (w.bp b).labelColor ∨ ∀ c, p.labelColor = some c → c.Made) →
      ∀ c, ((w.setBp b p).bp b').labelColor = some c → c.Made := by
    intro b p hs c
    rw [setBp_bp]
    split
    · rcases hs with hs | hs
      · rw [hs]; exact h b c
      · exact hs c
    · exact h b' c
  cases hp with
  | ent r e he => exact h b'
  | env e => exact h b'
  | bp b p h1 h2 h3 _ h5 => exact key b p h5.color
  | sort b =>
    by_cases e : b' = b
    · subst e; rw [sort_bp_self]; exact h b'
    · rw [sort_bp_other e]; exact h b'
  | noConns b => exact key b _ (.inl rfl)
  | addConn b r c' _ => exact key b _ (.inl rfl)
  | orient b r => exact key b _ (.inl rfl)
  | flip b i => exact key b _ (.inl rfl)
  | flipColor b i _ => exact key b _ (.inl rfl)
  | alloc l e _ => exact h b'
  | load b e he ha => exact key b _ (.inl rfl)
  | add b r hr hl hn ha => exact key b _ (.inl rfl)
  | drop b r hr hx => exact key b _ (.inl rfl)

theorem Reachable.colors {env : Env} {w : World} (h : Reachable env w) (b : BpId) :
    ∀ c, (w.bp b).labelColor = some c → c.Made :=
  h.invariant (I := fun w => ∀ b c, (w.bp b).labelColor = some c → c.Made) (fun _ _ h => by cases h)
    (fun _ _ h hp => hp.colors h) b

theorem Color.Made.range {c : Color} (h : c.Made) :
    (0 ≤ c.r.val ∧ c.r.val ≤ 1) ∧ (0 ≤ c.g.val ∧ c.g.val ≤ 1) ∧ (0 ≤ c.b.val ∧ c.b.val ≤ 1) ∧
      (0 ≤ c.a.val ∧ c.a.val ≤ 1) := by
  obtain ⟨r, g, b, a, rfl⟩ := h
  exact ⟨Color.clamp_range r, Color.clamp_range g, Color.clamp_range b, Color.clamp_range a⟩

/-! ## Calls that list entities -/

/-- The layers other than `b` are as before, and `b` is in order. -/
structure OnlyLayer (w w' : World) (b : BpId) : Prop where
  others : ∀ c, c ≠ b → (w'.bp c).objs = (w.bp c).objs ∧
    ∀ s ∈ (w.bp c).objs, (w'.heap s).auto = (w.heap s).auto ∧ (w'.heap s).pos = (w.heap s).pos
  ordered : ∃ l, InOrder w' b l

theorem OnlyLayer.numbered {w w' : World} {b : BpId} (h : OnlyLayer w w' b) (hw : ∀ c, DistinctNumbers w c) (c : BpId) :
    DistinctNumbers w' c := by
  by_cases e : c = b
  · subst e; obtain ⟨l, hl⟩ := h.ordered; exact InOrder.numbers hl
  · obtain ⟨h1, h2⟩ := h.others c e
    exact (hw c).congr (by rw [h1]) (fun r hr => (h2 r (by rwa [← h1])).1)

theorem OnlyLayer.sorted {w w' : World} {b : BpId} (h : OnlyLayer w w' b) (hw : ∀ c, Sorted w c) (c : BpId) :
    Sorted w' c := by
  by_cases e : c = b
  · subst e; obtain ⟨l, hl⟩ := h.ordered; exact hl.sorted
  · obtain ⟨h1, h2⟩ := h.others c e
    exact Sorted.congr (hw c) (by rw [h1]) (fun r hr => (h2 r (by rwa [← h1])).2)

theorem onlyLayer_listed {w : World} (ho : Owned w) {b : BpId} {r : Ref}
    (hl : (w.heap r).layer = none ∨ (w.heap r).layer = some b) (hn : r ∉ (w.bp b).objs) :
    OnlyLayer w ((w.listed b r).sort b) b := by
  refine ⟨fun c hc => ⟨?_, fun s hs => ?_⟩, _, sort_inOrder _ b (listed_nodup ho hn)⟩
  · rw [sort_bp_other hc, listed_bp_other hc]
  · have hsr : s ≠ r := by
      rintro rfl
      have := ho.layer c s hs
      rw [this] at hl
      simp only [reduceCtorEq, Option.some.injEq, false_or] at hl
      exact hc hl
    have hsb : s ∉ ((w.listed b r).bp b).objs := by
      rw [listed_objs, List.mem_append, List.mem_singleton]
      rintro (h | h)
      · exact ho.disjoint hc hs h
      · exact hsr h
    rw [sort_heap_other hsb, listed_heap_other hsr]
    exact ⟨rfl, rfl⟩

theorem onlyLayer_add {w : World} (ho : Owned w) (b : BpId) (o : Obj) :
    (layerAdd b o w).2 = w ∨ OnlyLayer w (layerAdd b o w).2 b := by
  cases h : layerAdd b o w with
  | mk res w' =>
    cases o with
    | ent r =>
      cases res with
      | ok u =>
        obtain ⟨hl, ⟨-, rfl⟩ | ⟨hn, rfl⟩⟩ := layerAdd_cases h
        · exact .inl rfl
        · exact .inr (onlyLayer_listed ho hl hn)
      | error e =>
        left
        unfold layerAdd at h
        dsimp only at h
        split at h
        · cases h; rfl
        · split at h <;> cases h
    | tile t => cases h; exact .inl rfl
    | other => cases h; exact .inl rfl

theorem onlyLayer_make {w : World} (ho : Owned w) (b : BpId) (kw : Dict) :
    (layerMake b kw w).2 = w ∨ OnlyLayer w (layerMake b kw w).2 b := by
  cases h : layerMake b kw w with
  | mk res w' =>
    cases res with
    | error e => exact .inl (layerMake_error h).1
    | ok r =>
      right
      unfold layerMake at h
      obtain ⟨s, v, hn, h⟩ := M.bind_eq_ok.1 h
      obtain ⟨e, he, rfl, rfl⟩ := newEntity_ok hn
      obtain ⟨⟨⟩, u, ha, h⟩ := M.bind_eq_ok.1 h
      cases h
      have hov : Owned { w.setEnt w.next e with next := w.next + 1 } := ho.alloc e
      have hnot : w.next ∉ (({ w.setEnt w.next e with next := w.next + 1 } : World).bp b).objs :=
        fun hm => absurd (ho.exist b _ hm) (Nat.lt_irrefl _)
      obtain ⟨hl, ⟨h1, -⟩ | ⟨hn', rfl⟩⟩ := layerAdd_cases ha
      · exact absurd h1 hnot
      · have := onlyLayer_listed hov hl hn'
        refine ⟨fun c hc => ⟨(this.others c hc).1, fun s hs => ?_⟩, this.ordered⟩
        obtain ⟨i1, i2⟩ := (this.others c hc).2 s hs
        have hsn : s ≠ w.next := Nat.ne_of_lt (ho.exist c s hs)
        have e2 : ({ w.setEnt w.next e with next := w.next + 1 } : World).heap s = w.heap s := by
          show (if s = w.next then e else w.heap s) = _
          rw [if_neg hsn]
        rw [e2] at i1 i2
        exact ⟨i1, i2⟩

theorem onlyLayer_load {w w' : World} (ho : Owned w) {b : BpId} {data : Val} (h : load b data w = (.ok (), w')) :
    OnlyLayer w w' b := by
  obtain ⟨d, col, iv, ic, ev, es, cs, sv, scheds, h1, h2, h3, h4, h5, h6, h7, h8, h9, h10, h11, rfl⟩ := (load_ok ho).1 h
  refine ⟨fun c hc => ⟨?_, fun s hs => ?_⟩, _, (base_inOrder w b d col ic es ho).congr (by rw [setBp_bp_self]) rfl⟩
  · rw [setBp_bp, if_neg hc, base_bp_other _ _ _ _ _ _ hc]
  · rw [setBp_heap, base_heap_foreign _ _ _ _ _ _ (ho.exist c s hs) (ho.disjoint hc hs)]
    exact ⟨rfl, rfl⟩

theorem forEach_entRotate_other (n : Int) (a : Operand) (d : DirArg) (l : List Ref) (w : World) {s : Ref} (hs : s ∉ l) :
    (M.forEach (entRotate n a d) l w).2.heap s = w.heap s := by
  induction l generalizing w with
  | nil => rfl
  | cons r l ih =>
    have hsr : s ≠ r := fun e => hs (e ▸ List.mem_cons_self)
    have e1 : (entRotate n a d r w).2.heap s = w.heap s := by
      show (w.setEnt r _).heap s = _
      rw [setEnt_heap, if_neg hsr]
    show (((entRotate n a d r) >>= fun _ => M.forEach (entRotate n a d) l) w).2.heap s = _
    rw [M.bind_eq]
    split
    · rename_i x v hv
      rw [hv] at e1
      exact e1
    · rename_i x v hv
      rw [hv] at e1
      rw [ih v (fun hm => hs (List.mem_cons_of_mem _ hm))]
      exact e1

theorem onlyLayer_rotate {w w' : World} (ho : Owned w) {b : BpId} {n : Int} {a : Option Operand} {d : Option DirArg}
    (h : bpRotate b n a d w = (.ok (), w')) : OnlyLayer w w' b := by
  obtain ⟨v, ts, hv, rfl⟩ := bpRotate_ok h
  obtain ⟨u, hu, rfl, hbp, -, -⟩ := layerRotate_ok hv
  refine ⟨fun c hc => ⟨?_, fun s hs => ?_⟩, _, (sort_inOrder u b (by rw [hbp]; exact ho.nodup b)).congr
    (by rw [setBp_bp_self]) rfl⟩
  · rw [setBp_bp, if_neg hc, sort_bp_other hc, hbp]
  · have e1 := forEach_entRotate_other n (a.getD (.vec ⟨.int 0, .int 0⟩)) (d.getD (.int Direction.CLOCKWISE))
      (w.bp b).objs w (ho.disjoint hc hs)
    rw [hu] at e1
    rw [setBp_heap, sort_heap_other (by rw [hbp]; exact ho.disjoint hc hs)]
    rw [show u.heap s = w.heap s from e1]
    exact ⟨rfl, rfl⟩

theorem onlyLayer_layerRotate {w w' : World} (ho : Owned w) {b : BpId} {n : Int} {a : Option Operand}
    {d : Option DirArg} (h : layerRotate b n a d w = (.ok (), w')) : OnlyLayer w w' b := by
  obtain ⟨u, hu, rfl, hbp, -, -⟩ := layerRotate_ok h
  refine ⟨fun c hc => ⟨?_, fun s hs => ?_⟩, _, sort_inOrder u b (by rw [hbp]; exact ho.nodup b)⟩
  · rw [sort_bp_other hc, hbp]
  · have e1 := forEach_entRotate_other n (a.getD (.vec ⟨.int 0, .int 0⟩)) (d.getD (.int Direction.CLOCKWISE))
      (w.bp b).objs w (ho.disjoint hc hs)
    rw [hu] at e1
    rw [sort_heap_other (by rw [hbp]; exact ho.disjoint hc hs)]
    rw [show u.heap s = w.heap s from e1]
    exact ⟨rfl, rfl⟩

/-! ## Histories -/

theorem step_numbered {w : World} (ho : Owned w) (hw : ∀ b, DistinctNumbers w b) {op : Op} (hr : op.refsOk w)
    (hc : Completes w op) : ∀ b, DistinctNumbers (op.run w).2 b := by
  have steps : op.kind.appends = false → ∀ b, DistinctNumbers (op.run w).2 b := by
    intro hk
    refine (Steps.induct (I := fun v => Owned v ∧ ∀ b, DistinctNumbers v b) ?_ (op.steps hr) ⟨ho, hw⟩).2
    rintro v v' ⟨h1, h2⟩ hp
    exact ⟨Owned.prim _ _ h1 hp, hp.numbered hk h1 h2⟩
  have only : ∀ {w' : World} {b : BpId}, (w' = w ∨ OnlyLayer w w' b) → ∀ b, DistinctNumbers w' b := by
    rintro w' b (rfl | h)
    · exact hw
    · exact h.numbered hw
  cases op with
  | make b kw =>
    have e : ((Op.make b kw).run w).2 = (layerMake b kw w).2 := by
      show ((layerMake b kw >>= fun _ => pure ()) w).2 = _
      rw [M.bind_eq]
      split <;> rename_i h <;> rw [h] <;> rfl
    rw [e]
    exact only (onlyLayer_make ho b kw)
  | add b o => exact only (onlyLayer_add ho b o)
  | load b d =>
    obtain ⟨w', h⟩ := hc
    have e : ((Op.load b d).run w).2 = w' := congrArg Prod.snd h
    rw [e]
    exact only (.inr (onlyLayer_load ho h))
  | _ => exact steps rfl

theorem step_sorted {w : World} (ho : Owned w) (hw : ∀ b, Sorted w b) {op : Op} (hr : op.refsOk w)
    (hc : Orderly w op) : ∀ b, Sorted (op.run w).2 b := by
  have steps : op.kind.appends = false → op.kind.moves = false → ∀ b, Sorted (op.run w).2 b := by
    intro hk hm
    refine (Steps.induct (I := fun v => Owned v ∧ ∀ b, Sorted v b) ?_ (op.steps hr) ⟨ho, hw⟩).2
    rintro v v' ⟨h1, h2⟩ hp
    exact ⟨Owned.prim _ _ h1 hp, hp.sorted hk hm h1 h2⟩
  have only : ∀ {w' : World} {b : BpId}, (w' = w ∨ OnlyLayer w w' b) → ∀ b, Sorted w' b := by
    rintro w' b (rfl | h)
    · exact hw
    · exact h.sorted hw
  cases op with
  | make b kw =>
    have e : ((Op.make b kw).run w).2 = (layerMake b kw w).2 := by
      show ((layerMake b kw >>= fun _ => pure ()) w).2 = _
      rw [M.bind_eq]
      split <;> rename_i h <;> rw [h] <;> rfl
    rw [e]
    exact only (onlyLayer_make ho b kw)
  | add b o => exact only (onlyLayer_add ho b o)
  | load b d =>
    obtain ⟨w', h⟩ := hc
    have e : ((Op.load b d).run w).2 = w' := congrArg Prod.snd h
    rw [e]
    exact only (.inr (onlyLayer_load ho h))
  | rotate b n a d =>
    obtain ⟨w', h⟩ := hc
    have e : ((Op.rotate b n a d).run w).2 = w' := congrArg Prod.snd h
    rw [e]
    exact only (.inr (onlyLayer_rotate ho h))
  | rotateLayer b n a d =>
    obtain ⟨w', h⟩ := hc
    have e : ((Op.rotateLayer b n a d).run w).2 = w' := congrArg Prod.snd h
    rw [e]
    exact only (.inr (onlyLayer_layerRotate ho h))
  | entRotate r n a d => exact hc.elim
  | setPos r v => exact hc.elim
  | recenter b a => exact hc.elim
  | _ => exact steps rfl rfl

theorem completes_of_orderly {w : World} {op : Op} (h : Orderly w op) : Completes w op := by
  cases op <;> first | exact h | exact trivial

theorem run_numbered {env : Env} {w : World} (h : RunOf Completes env w) (b : BpId) : DistinctNumbers w b := by
  induction h generalizing b with
  | init => exact ⟨fun r hr => (List.not_mem_nil hr).elim, fun r hr => (List.not_mem_nil hr).elim⟩
  | step op h hr hc ih => exact step_numbered h.reachable.owned ih hr hc b

theorem run_sorted {env : Env} {w : World} (h : RunOf Orderly env w) (b : BpId) : Sorted w b := by
  induction h generalizing b with
  | init => exact List.Pairwise.nil
  | step op h hr hc ih => exact step_sorted h.reachable.owned ih hr hc b

theorem Eff.keeps {k : Kind} {I : World → Prop} (hI : ∀ w w', I w → Prim k w w' → I w') {α} {x : M α} (h : Eff k x) :
    Keeps I x := ⟨fun w hw => Steps.induct hI (h.steps w) hw⟩

theorem drop_rest (w₀ : World) (b : BpId) (r : Ref) :
    Keeps (fun w => ∀ c, (w.bp c).schedules = (w₀.bp c).schedules) (layerDrop b r) := by
  refine ⟨fun w h c => ?_⟩
  unfold layerDrop
  split
  · rw [setEnt_bp, setBp_bp]
    split
    · rename_i e; subst e; exact h c
    · exact h c
  · exact h c

theorem step_schedules {w : World} (hw : ∀ b, SchedulesListed w b) {op : Op} (hr : op.refsOk w)
    (hc : KeepsScheduled w op) (b : BpId) : SchedulesListed (op.run w).2 b := by
  have steps : op.kind.removes = false → SchedulesListed (op.run w).2 b := fun hk =>
    Steps.induct (I := fun v => ∀ b, SchedulesListed v b) (fun _ _ h2 hp => hp.schedules hk h2) (op.steps hr) hw b
  have same : (∀ c, ((op.run w).2.bp c).schedules = (w.bp c).schedules) → SchedulesListed (op.run w).2 b := by
    intro hs s hs' r hr'
    rw [hs b] at hs'
    refine Classical.byContradiction (fun hn => ?_)
    exact hc b r ⟨hw b s hs' r hr', hn⟩ s hs' hr'
  cases op with
  | remove d o =>
    cases o with
    | ent r => exact same ((drop_rest w d r).1 w (fun _ => rfl))
    | tile t => exact same (fun _ => rfl)
    | other => exact same (fun _ => rfl)
  | delObj d r => exact same ((drop_rest w d r).1 w (fun _ => rfl))
  | delAt d p =>
    refine same ((Keeps.bind ?_ (fun l => Keeps.forEach (fun r => drop_rest w d r) l)).1 w (fun _ => rfl))
    refine ⟨fun v hv => ?_⟩
    unfold layerGet
    split <;> exact hv
  | _ => exact steps rfl

theorem run_schedules {env : Env} {w : World} (h : RunOf KeepsScheduled env w) (b : BpId) : SchedulesListed w b := by
  induction h generalizing b with
  | init => intro s hs; exact (List.not_mem_nil hs).elim
  | step op h hr hc ih => exact step_schedules ih hr hc b

/-! ## Wires -/

/-- Each wire in `ds` has the ends of a wire in `cs`. -/
def EndsFrom (cs ds : List Conn) : Prop := ∀ d ∈ ds, ∃ c ∈ cs, ∀ r, EndAt d r ↔ EndAt c r

theorem EndsFrom.refl (cs : List Conn) : EndsFrom cs cs := fun d hd => ⟨d, hd, fun _ => Iff.rfl⟩

theorem EndsFrom.trans {cs ds es : List Conn} (h : EndsFrom cs ds) (h' : EndsFrom ds es) : EndsFrom cs es := by
  intro e he
  obtain ⟨d, hd, h1⟩ := h' e he
  obtain ⟨c, hc, h2⟩ := h d hd
  exact ⟨c, hc, fun r => (h1 r).trans (h2 r)⟩

theorem EndsFrom.map {f : Conn → Conn} (hf : ∀ c r, EndAt (f c) r ↔ EndAt c r) (cs : List Conn) : EndsFrom cs (cs.map f) := by
  intro d hd
  obtain ⟨c, hc, rfl⟩ := List.mem_map.1 hd
  exact ⟨c, hc, hf c⟩

theorem EndsFrom.modify {f : Conn → Conn} (hf : ∀ c r, EndAt (f c) r ↔ EndAt c r) (cs : List Conn) (i : Nat) :
    EndsFrom cs (cs.modify i f) := by
  intro d hd
  obtain ⟨j, hj, rfl⟩ := List.getElem_of_mem hd
  rw [List.length_modify] at hj
  refine ⟨cs[j], List.getElem_mem hj, fun r => ?_⟩
  rw [List.getElem_modify]
  split
  · exact hf _ r
  · exact Iff.rfl

theorem endAt_flip (c : Conn) (r : Ref) : EndAt c.flip r ↔ EndAt c r := or_comm

theorem endAt_orientate (c : Conn) (s r : Ref) : EndAt (if c.attachedTo s then c.orientate s else c) r ↔ EndAt c r := by
  unfold Conn.orientate
  split
  · split
    · exact endAt_flip c r
    · exact Iff.rfl
  · exact Iff.rfl

theorem endAt_flipColor (c : Conn) (r : Ref) : EndAt c.flipColor r ↔ EndAt c r := by
  unfold Conn.flipColor
  split <;> exact Iff.rfl

theorem Prim.ends {k : Kind} (hk : k.wires = false) {w w' : World} (hp : Prim k w w') (c : BpId) :
    EndsFrom (w.bp c).conns (w'.bp c).conns := by
  have key : ∀ (b : BpId) (p : Bp), EndsFrom (w.bp b).conns p.conns →
      EndsFrom (w.bp c).conns ((w.setBp b p).bp c).conns := by
    intro b p h
    rw [setBp_bp]
    split
    · rename_i e; subst e; exact h
    · exact .refl _
  cases hp with
  | ent r e he => exact .refl _
  | env e => exact .refl _
  | bp b p h1 h2 => exact key b p (by rw [h2]; exact .refl _)
  | sort b =>
    by_cases e : c = b
    · subst e; rw [sort_bp_self]; exact .refl _
    · rw [sort_bp_other e]; exact .refl _
  | noConns b => exact key b _ (fun d hd => by cases hd)
  | addConn b r c' _ h => rw [hk] at h; cases h
  | orient b r => exact key b _ (EndsFrom.map (fun c s => endAt_orientate c r s) _)
  | flip b i => exact key b _ (EndsFrom.modify endAt_flip _ _)
  | flipColor b i _ => exact key b _ (EndsFrom.modify endAt_flipColor _ _)
  | alloc l e _ => exact .refl _
  | load b e he ha => exact key b _ (.refl _)
  | add b r hr hl hn ha => exact key b _ (.refl _)
  | drop b r hr hx => exact key b _ (.refl _)

theorem Prim.objs_mem {k : Kind} (hk : k.removes = false) {w w' : World} (hp : Prim k w w') (c : BpId) {r : Ref}
    (hr : r ∈ (w.bp c).objs) : r ∈ (w'.bp c).objs := by
  have key : ∀ (b : BpId) (p : Bp), (∀ r ∈ (w.bp b).objs, r ∈ p.objs) → r ∈ ((w.setBp b p).bp c).objs := by
    intro b p h
    rw [setBp_bp]
    split
    · rename_i e; subst e; exact h r hr
    · exact hr
  cases hp with
  | ent r e he => exact hr
  | env e => exact hr
  | bp b p h1 h2 => exact key b p (fun r hr => by rw [h1]; exact hr)
  | sort b =>
    by_cases e : c = b
    · subst e; exact (sort_objs_perm w c).mem_iff.2 hr
    · rw [sort_bp_other e]; exact hr
  | noConns b => exact key b _ (fun _ h => h)
  | addConn b r c' _ h => exact key b _ (fun _ h => h)
  | orient b r => exact key b _ (fun _ h => h)
  | flip b i => exact key b _ (fun _ h => h)
  | flipColor b i _ => exact key b _ (fun _ h => h)
  | alloc l e _ => exact hr
  | load b e he ha => exact key b _ (fun _ h => List.mem_append_left _ h)
  | add b s _ _ _ ha => exact key b _ (fun _ h => List.mem_append_left _ h)
  | drop b r _ hx => rw [hk] at hx; cases hx

/-- Effects that neither record wires nor take entities out keep wires within the blueprint. -/
theorem Prim.wiresListed {k : Kind} (hk : k.removes = false) (hw : k.wires = false) {w w' : World}
    (h : ∀ b, WiresListed w b) (hp : Prim k w w') (b : BpId) : WiresListed w' b := by
  intro d hd
  obtain ⟨c, hc, e⟩ := hp.ends hw b d hd
  obtain ⟨⟨r, h1⟩, h2⟩ := h b c hc
  exact ⟨⟨r, (e r).2 h1⟩, fun s hs => hp.objs_mem hk b (h2 s ((e s).1 hs))⟩

theorem wiresListed_addConn {w : World} {b : BpId} (h : ∀ b, WiresListed w b) {c : Conn} {r : Ref} (hf : c.fromE = some r)
    (hr : r ∈ (w.bp b).objs) (ht : ∀ s, c.toE = some s → s ∈ (w.bp b).objs) :
    ∀ b', WiresListed (w.setBp b { w.bp b with conns := addConn (w.bp b).conns c }) b' := by
  intro b' d hd
  rw [setBp_bp] at hd ⊢
  split
  · rename_i e
    subst e
    rw [if_pos rfl] at hd
    unfold addConn at hd
    have hd' : d ∈ (w.bp b').conns ∨ d = c := by
      split at hd
      · exact .inl hd
      · rcases List.mem_append.1 hd with hd | hd
        · exact .inl hd
        · exact .inr (List.mem_singleton.1 hd)
    rcases hd' with hd' | rfl
    · exact h b' d hd'
    · refine ⟨⟨r, .inl hf⟩, fun s hs => ?_⟩
      rcases hs with hs | hs
      · rw [hf] at hs; cases hs; exact hr
      · exact ht s hs
  · rename_i e
    rw [if_neg e] at hd
    exact h b' d hd

/-- The wires of all blueprints lead to listed entities, and the listed entities of `b` include `L`. -/
def Parsing (b : BpId) (L : List Ref) (w : World) : Prop := (∀ b', WiresListed w b') ∧ ∀ r ∈ L, r ∈ (w.bp b).objs

theorem Prim.parsing {k : Kind} (hk : k.removes = false) (hw : k.wires = false) (b : BpId) (L : List Ref) (w w' : World)
    (h : Parsing b L w) (hp : Prim k w w') : Parsing b L w' :=
  ⟨hp.wiresListed hk hw h.1, fun r hr => hp.objs_mem hk b (h.2 r hr)⟩

theorem Keeps.parsing_loadRef {b : BpId} {L : List Ref} {r : Ref} (hr : r ∈ L) (s c : String) (v : Val) :
    Keeps (Parsing b L) (loadRef b r s c v) := by
  refine ⟨fun w h => ?_⟩
  unfold Verif.loadRef
  rw [M.bind_get, M.lift_bind]
  split
  · rename_i id _
    rw [M.lift_bind]
    split
    · rw [M.lift_bind]
      split
      · rename_i conn hc
        obtain ⟨h1, h2, -⟩ := Conn.new_fromE hc
        refine ⟨wiresListed_addConn h.1 h1 (h.2 r hr) (fun s hs => ?_), fun s hs => ?_⟩
        · rw [h2] at hs
          exact List.mem_of_find?_eq_some hs
        · show s ∈ ((w.setBp b _).bp b).objs
          rw [setBp_bp_self]
          exact h.2 s hs
      · exact h
    · exact h
  · exact h

theorem Keeps.parsing_loadWires {b : BpId} {L : List Ref} {r : Ref} (hr : r ∈ L) :
    Keeps (Parsing b L) (loadWires b r) := by
  refine Keeps.bind Keeps.get (fun w => ?_)
  split
  · exact Keeps.pure _
  · refine Keeps.bind (Keeps.lift _) (fun _ => Keeps.forEach (fun _ => ?_) _)
    refine Keeps.bind (Keeps.lift _) (fun _ => Keeps.forEach (fun _ => ?_) _)
    exact Keeps.bind (Keeps.lift _) (fun _ => Keeps.forEach (fun _ => Keeps.parsing_loadRef hr _ _ _) _)

theorem Keeps.wires_parse (b : BpId) : Keeps (fun w => ∀ b', WiresListed w b') (parseConnections b) := by
  refine Keeps.bind ?_ (fun _ => ⟨fun w h => ?_⟩)
  · refine ⟨fun w h b' => ?_⟩
    exact Prim.wiresListed (k := {}) rfl rfl h (.noConns b) b'
  · rw [M.bind_get]
    have : Keeps (Parsing b (w.bp b).objs) (M.forEach (loadWires b) (w.bp b).objs >>= fun _ =>
        M.forEach (fun r => do let _ ← Verif.getConnections r; return ()) (w.bp b).objs) := by
      refine Keeps.bind (Keeps.forEach_mem (fun r hr => Keeps.parsing_loadWires hr)) (fun _ => ?_)
      refine Keeps.forEach (fun r => Keeps.bind ?_ (fun _ => Keeps.pure _)) _
      exact Eff.keeps (k := {}) (Prim.parsing rfl rfl b _) (Eff.getConnections r)
    exact (this.1 w ⟨h, fun _ hr => hr⟩).1

theorem Keeps.wires_load (b : BpId) (v : Val) : Keeps (fun w => ∀ b', WiresListed w b') (load b v) := by
  have eff : ∀ {α} {x : M α}, Eff { appends := true } x → Keeps (fun w => ∀ b', WiresListed w b') x :=
    fun h => Eff.keeps (fun _ _ h hp => hp.wiresListed rfl rfl h) h
  refine Keeps.bind (Keeps.lift _) (fun d => ?_)
  refine Keeps.bind (eff (Eff.modBp (by intro _; rfl) (by intro _; rfl) (by intro _; rfl) (.inl (by intro _; rfl)) (by intro _; exact .inl rfl) (by intro _; exact ⟨.inl rfl, .inl rfl⟩))) (fun _ => ?_)
  refine Keeps.bind (eff (Eff.loadColor b _)) (fun _ => ?_)
  refine Keeps.bind (eff (Eff.modBp (by intro _; rfl) (by intro _; rfl) (by intro _; rfl) (.inl (by intro _; rfl))
    (by intro _; exact .inr rfl) (by intro _; exact ⟨.inl rfl, .inl rfl⟩))) (fun _ => ?_)
  refine Keeps.bind (Keeps.lift _) (fun _ => ?_)
  refine Keeps.bind (Keeps.forEach (fun i => eff (Eff.loadIcon b i)) _) (fun _ => ?_)
  refine Keeps.bind (Keeps.lift _) (fun _ => ?_)
  refine Keeps.bind (Keeps.forEach (fun v => eff (Eff.layerLoad rfl b v)) _) (fun _ => ?_)
  refine Keeps.bind (eff (Eff.sortM b)) (fun _ => ?_)
  refine Keeps.bind (Keeps.wires_parse b) (fun _ => ?_)
  refine Keeps.bind (Keeps.lift _) (fun _ => ?_)
  refine Keeps.bind (Keeps.forEach (fun v => eff (Eff.tileLoad b v)) _) (fun _ => ?_)
  refine Keeps.bind (eff (Eff.tilesSort b)) (fun _ => ?_)
  refine Keeps.bind (Keeps.lift _) (fun _ => ?_)
  refine Keeps.bind Keeps.get (fun w => ?_)
  refine Keeps.bind (Keeps.lift _) (fun l => ⟨fun w h b' => ?_⟩)
  show WiresListed (w.setBp b { w.bp b with schedules := l }) b'
  intro c hc
  rw [setBp_bp] at hc ⊢
  split
  · rename_i e; subst e; rw [if_pos rfl] at hc; exact h b' c hc
  · rename_i e; rw [if_neg e] at hc; exact h b' c hc

theorem step_wires {w : World} (hw : ∀ b, WiresListed w b) {op : Op} (hr : op.refsOk w) (hk : KeepsWired w op)
    (hi : WiresInside w op) (b : BpId) : WiresListed (op.run w).2 b := by
  have steps : op.kind.wires = false → WiresListed (op.run w).2 b := by
    intro hx d hd
    have he : EndsFrom (w.bp b).conns ((op.run w).2.bp b).conns :=
      Steps.induct (I := fun v => EndsFrom (w.bp b).conns (v.bp b).conns)
        (fun _ _ h2 hp => h2.trans (hp.ends hx b)) (op.steps hr) (.refl _)
    obtain ⟨c, hc, e⟩ := he d hd
    obtain ⟨⟨r, h1⟩, h2⟩ := hw b c hc
    refine ⟨⟨r, (e r).2 h1⟩, fun s hs => Classical.byContradiction (fun hn => ?_)⟩
    exact hk b s ⟨h2 s ((e s).1 hs), hn⟩ c hc ((e s).1 hs)
  cases op with
  | load d v => exact (Keeps.wires_load d v).1 w hw b
  | parse d => exact (Keeps.wires_parse d).1 w hw b
  | connect r t f s x =>
    have e : ((Op.connect r t f s x).run w).2 = (Verif.connect r t f s x w).2 := by
      show ((Verif.connect r t f s x >>= fun _ => pure ()) w).2 = _
      rw [M.bind_eq]
      split <;> rename_i h <;> rw [h] <;> rfl
    rw [e]
    unfold Verif.connect
    split
    · exact hw b
    · rename_i c hc
      split
      · exact hw b
      · rename_i d hd
        obtain ⟨h1, h2, -⟩ := Conn.new_fromE hc
        obtain ⟨i1, i2⟩ := hi d hd
        exact wiresListed_addConn hw h1 i1 (fun s hs => i2 s (by rw [← h2]; exact hs)) b
  | _ => exact steps rfl

theorem run_wires {env : Env} {w : World} (h : RunOf (fun w op => KeepsWired w op ∧ WiresInside w op) env w) (b : BpId) :
    WiresListed w b := by
  induction h generalizing b with
  | init => intro c hc; exact (List.not_mem_nil hc).elim
  | step op h hr hc ih => exact step_wires ih hr hc.1 hc.2 b

/-! ## Exported numbers -/

theorem export_numbers {w w' : World} {b : BpId} {v : Val} {o : Dict} {l : List Val}
    (he : toJson b w = (.ok v, w')) (hc : Content v o) (hl : ListAt o "entities" l) :
    l.map exportedNumber = (w.bp b).objs.map (fun r => some (autoVal (w.heap r).auto)) := by
  obtain ⟨ents, icons, h1, -, rfl⟩ := export_content he hc
  cases listAt_entities hl
  obtain ⟨hlen, hget⟩ := mapL_get (fun r => Keeps.flips_entToJson w r) h1 (SameUpToFlips.refl w)
  refine List.ext_getElem? (fun i => ?_)
  rw [List.getElem?_map, List.getElem?_map]
  by_cases hi : i < (w.bp b).objs.length
  · obtain ⟨u, u', e, hu, hb, hf⟩ := hget i hi
    rw [hb, List.getElem?_eq_getElem hi]
    obtain ⟨d, -, rfl, -, hn, -⟩ := entToJson_ok hf
    simp only [Option.map_some, exportedNumber, hn, hu.heap]
  · rw [List.getElem?_eq_none (by omega), List.getElem?_eq_none (by omega)]
    rfl

/-! ## Export and wires -/

/-- If a blueprint can be exported, a wire attached to one of its entities has two ends. -/
theorem export_ends {w w' : World} (h : Owned w) {b : BpId} {v : Val} (he : toJson b w = (.ok v, w')) {c : Conn}
    (hc : c ∈ (w.bp b).conns) {r : Ref} (hr : r ∈ (w.bp b).objs) (ha : EndAt c r) :
    ∃ x y, c.fromE = some x ∧ c.toE = some y := by
  have hco : ∃ o ents, Content v o ∧ ListAt o "entities" ents := by
    obtain ⟨ents, icons, -, -, rfl⟩ := toJson_ok.1 he
    refine ⟨_, ents, .wrapped _ _ rfl, ?_⟩
    have := (export_lookup (w.bp b) ents icons ((w.bp b).schedules.map (scheduleJson w.heap))).2.2.2.1
    unfold ListAt
    rw [this]
    by_cases e : ents = []
    · rw [if_pos e]; exact .inr ⟨rfl, e⟩
    · rw [if_neg e]; exact .inl rfl
  obtain ⟨o, ents, ho, hents⟩ := hco
  obtain ⟨-, hall⟩ := export_wires h he ho hents
  obtain ⟨i, hi, rfl⟩ := List.getElem_of_mem hr
  obtain ⟨d, cs, -, -, hcs, -, -, hfar, -⟩ := hall i hi
  have key : ∀ side color p, p ∈ farEnds (w.bp b).conns (w.bp b).objs[i] side color → ∃ x, p.1 = some x := by
    intro side color p hp
    obtain ⟨c', hc', -, hx⟩ := mem_farEnds.1 ((hfar side color).mem_iff.2 hp)
    obtain ⟨h1, t, h2⟩ := hcs c' hc'
    rcases hx with hx | hx
    · exact ⟨t, hx.2.2.1.symm.trans h2⟩
    · exact ⟨_, hx.2.2.1.symm.trans h1⟩
  rcases ha with ha | ha
  · obtain ⟨y, hy⟩ := key c.fromSide c.color (c.toE, c.toSide) (mem_farEnds.2 ⟨c, hc, rfl, .inl ⟨ha, rfl, rfl, rfl⟩⟩)
    exact ⟨_, y, ha, hy⟩
  · obtain ⟨x, hx⟩ := key c.toSide c.color (c.fromE, c.fromSide) (mem_farEnds.2 ⟨c, hc, rfl, .inr ⟨ha, rfl, rfl, rfl⟩⟩)
    exact ⟨x, _, hx, ha⟩

/-- Blueprints with readable settings whose wires lead to entities of the blueprint have readable content. -/
theorem Spec.ReadableSettings.content {w w' : World} {b : BpId} (hr : ReadableSettings w b) (h : Owned w)
    (hw : WiresListed w b) {v : Val} (he : toJson b w = (.ok v, w')) : ReadableContent w b where
  strict := hr.strict
  constants := hr.constants
  names := hr.names
  wires c hc := by
    obtain ⟨⟨r, hx⟩, h2⟩ := hw c hc
    obtain ⟨x, y, h3, h4⟩ := export_ends h he hc (h2 r hx) hx
    obtain ⟨h5, h6⟩ := hr.sides c hc
    exact ⟨x, h2 x (.inl h3), y, h2 y (.inr h4), h3, h4, h5,
      h6.imp_right (fun h6 => ⟨h6 x (.inl h3), h6 y (.inr h4)⟩)⟩

/-- Connecting does not change what a blueprint lists. -/
theorem connect_objs (r : Ref) (t : Option Ref) (f s : Val) (c : String) (w : World) (b : BpId) :
    (((Op.connect r t f s c).run w).2.bp b).objs = (w.bp b).objs := by
  have e : ((Op.connect r t f s c).run w).2 = (connect r t f s c w).2 := by
    rw [Op.run.eq_def]
    show ((connect r t f s c >>= fun _ => pure ()) w).2 = _
    rw [M.bind_eq]
    split <;> (rename_i h; rw [h])
    rfl
  rw [e]
  unfold connect
  split
  · rfl
  · split
    · rfl
    · rw [setBp_bp]
      split
      · rename_i e; subst e; rfl
      · rfl

end Verif
