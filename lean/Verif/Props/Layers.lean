import Verif.Proofs.Layer
import Verif.Props.Sample
/-!
# Properties C11–C17: layers
-/
set_option autoImplicit false

namespace Verif
open Spec

/-! ## C11 An entity belongs to exactly the layer that lists it -/

/-- After any history of calls, including failing ones: no layer lists an entity twice, no two
blueprints list the same entity, every listed entity exists and reports the blueprint as its own. -/
theorem C11_ownership {env : Env} {w : World} (h : Reachable env w) :
    (∀ b, (w.bp b).objs.Nodup) ∧
    (∀ b c r, r ∈ (w.bp b).objs → r ∈ (w.bp c).objs → b = c) ∧
    (∀ b r, r ∈ (w.bp b).objs → (w.heap r).layer = some b ∧ r < w.next) := by
  have h := h.owned
  refine ⟨h.nodup, fun b c r hb hc => ?_, fun b r hr => ⟨h.layer b r hr, h.exist b r hr⟩⟩
  have h1 := h.layer b r hb
  rw [h.layer c r hc] at h1
  exact (Option.some.inj h1).symm

/-- An entity without a blueprint is not listed anywhere. -/
theorem C11_free {env : Env} {w : World} (h : Reachable env w) {r : Ref}
    (hr : (w.heap r).layer = none) (b : BpId) : r ∉ (w.bp b).objs := by
  intro hm
  have := h.owned.layer b r hm
  rw [hr] at this
  cases this

example : Reachable Sample.env Sample.belts ∧ (Sample.belts.bp 0).objs = [1, 0, 2] :=
  ⟨Sample.belts_reachable, by decide +kernel⟩

example : Reachable Sample.env Sample.loaded ∧ (Sample.loaded.bp 0).objs = [1, 0, 2] :=
  ⟨Sample.loaded_reachable, by decide +kernel⟩

/-! ## C12 Adding is idempotent, exclusive and all-or-nothing -/

/-- Adding an entity that is listed already changes nothing. -/
theorem C12_add_listed {env : Env} {w : World} (h : Reachable env w) {b : BpId} {r : Ref}
    (hr : r ∈ (w.bp b).objs) : layerAdd b (.ent r) w = (.ok (), w) := by
  unfold layerAdd
  have := h.owned.layer b r hr
  simp [this, hr]

/-- Adding an entity of another blueprint raises and changes nothing. -/
theorem C12_add_foreign (w : World) {b c : BpId} {r : Ref} (hr : (w.heap r).layer = some c)
    (hc : c ≠ b) : layerAdd b (.ent r) w = (.error .duplicateEntity, w) := by
  unfold layerAdd
  simp [hr, hc]

/-- In particular one that another blueprint lists. -/
theorem C12_add_listed_elsewhere {env : Env} {w : World} (h : Reachable env w) {b c : BpId} {r : Ref}
    (hr : r ∈ (w.bp c).objs) (hc : c ≠ b) :
    layerAdd b (.ent r) w = (.error .duplicateEntity, w) :=
  C12_add_foreign w (h.owned.layer c r hr) hc

/-- Adding an object that is not an entity raises and changes nothing. -/
theorem C12_add_type (w : World) (b : BpId) {o : Obj} (ho : ∀ r, o ≠ .ent r) :
    layerAdd b o w = (.error .typeError, w) := by
  cases o with
  | ent r => exact absurd rfl (ho r)
  | tile t => rfl
  | other => rfl

/-- Otherwise the entity is added and reports the blueprint; nothing else happens except that the
entities of this blueprint are numbered again. -/
theorem C12_add_new {w : World} {b : BpId} {r : Ref}
    (hl : (w.heap r).layer = none ∨ (w.heap r).layer = some b) (hn : r ∉ (w.bp b).objs) :
    ∃ w', layerAdd b (.ent r) w = (.ok (), w') ∧
      (w'.bp b).objs.Perm (r :: (w.bp b).objs) ∧
      { w'.bp b with objs := [] } = { w.bp b with objs := [] } ∧
      (∀ c, c ≠ b → w'.bp c = w.bp c) ∧
      SameButNumber (w'.heap r) { w.heap r with layer := some b } ∧
      (∀ s, s ≠ r → SameButNumber (w'.heap s) (w.heap s)) ∧
      (∀ s, s ≠ r → s ∉ (w.bp b).objs → w'.heap s = w.heap s) ∧
      w'.env = w.env ∧ w'.next = w.next := by
  refine ⟨_, layerAdd_new hl hn, ?_, ?_, ?_, ?_, ?_, ?_, rfl, rfl⟩
  · refine (sort_objs_perm _ _).trans ?_
    rw [listed_objs]
    exact List.perm_append_singleton _ _
  · rw [sort_bp_self]
    simp [World.listed]
  · intro c hc
    rw [sort_bp_other hc, listed_bp_other hc]
  · obtain ⟨n, h⟩ := sort_heap (w.listed b r) b r
    rw [h, listed_heap_self]
    rfl
  · intro s hs
    obtain ⟨n, h⟩ := sort_heap (w.listed b r) b s
    rw [h, listed_heap_other hs]
    rfl
  · intro s hs hns
    show reindexFrom (w.listed b r).heap 0 _ s = _
    rw [reindexFrom_not_mem, listed_heap_other hs]
    rw [mem_sortBy, listed_objs]
    simp [hs, hns]

example : ∃ w r, Reachable Sample.env w ∧ (w.heap r).layer = none ∧ r < w.next ∧
    (w.bp 0).objs.length = 3 :=
  ⟨((Op.newEntity none (Sample.ent "belt" 3 3)).run Sample.belts).2, 3,
    .step (.newEntity none _) Sample.belts_reachable trivial,
    by decide +kernel, by decide +kernel, by decide +kernel⟩

/-! ## C13 Entities are kept in reading order and numbered 1..n -/

/-- After adding an entity the layer is in order. -/
theorem C13_add {env : Env} {w w' : World} (h : Reachable env w) {b : BpId} {r : Ref}
    (hn : r ∉ (w.bp b).objs) (hw : layerAdd b (.ent r) w = (.ok (), w')) :
    InOrder w' b ((w.bp b).objs ++ [r]) := by
  obtain ⟨hl, h' | ⟨-, rfl⟩⟩ := layerAdd_cases hw
  · exact absurd h'.1 hn
  · have := sort_inOrder (w.listed b r) b (listed_nodup h.owned hn)
    rwa [listed_objs] at this

/-- After `make` the layer is in order. -/
theorem C13_make {env : Env} {w w' : World} (h : Reachable env w) {b : BpId} {kw : Dict} {r : Ref}
    (hw : layerMake b kw w = (.ok r, w')) : InOrder w' b ((w.bp b).objs ++ [r]) := by
  unfold layerMake at hw
  rw [M.bind_eq_ok] at hw
  obtain ⟨s, v, hv, hw⟩ := hw
  have hr : Reachable env v := by
    have := Reachable.step (.newEntity (some b) kw) h trivial
    have he : ((Op.newEntity (some b) kw).run w).2 = v := by
      show ((newEntity (some b) kw >>= fun _ => pure ()) w).2 = v
      rw [M.bind_ok hv]; rfl
    rwa [he] at this
  obtain ⟨e, he, rfl, rfl⟩ := newEntity_ok hv
  rw [M.bind_eq_ok] at hw
  obtain ⟨⟨⟩, u, hu, hw⟩ := hw
  cases hw
  refine C13_add hr ?_ hu
  intro hm
  exact absurd (h.owned.exist b _ hm) (Nat.lt_irrefl _)

/-- After a successful rotation the layer is in order. -/
theorem C13_rotate {env : Env} {w w' : World} (h : Reachable env w) {b : BpId} {n : Int}
    {a : Option Operand} {d : Option DirArg} (hw : bpRotate b n a d w = (.ok (), w')) :
    InOrder w' b (w.bp b).objs := by
  obtain ⟨v, ts, hv, rfl⟩ := bpRotate_ok hw
  obtain ⟨u, hu, rfl, hbp, -, -⟩ := layerRotate_ok hv
  have := sort_inOrder u b (by rw [hbp]; exact h.owned.nodup b)
  rw [hbp] at this
  exact this.congr (by simp) rfl

example : (layerMake 0 (Sample.ent "belt" 3 3) Sample.belts).1 = .ok 3 ∧
    ((layerMake 0 (Sample.ent "belt" 3 3) Sample.belts).2.bp 0).objs = [1, 0, 3, 2] ∧
    (bpRotate 0 1 none none Sample.belts).1 = .ok () ∧
    ((bpRotate 0 1 none none Sample.belts).2.bp 0).objs = [1, 2, 0] := by decide +kernel

/-! ## C14 Looking up a position returns exactly the entities covering it -/

/-- A successful lookup lists, in layer order and without repetition, exactly the covering entities;
nothing changes. -/
theorem C14_lookup {env : Env} {w w' : World} (h : Reachable env w) {b : BpId} {p : Vec}
    {rs : List Ref} (hg : layerGet b (.vec p) w = (.ok rs, w')) :
    w' = w ∧ rs.Sublist (w.bp b).objs ∧ rs.Nodup ∧
    ∀ r, r ∈ rs ↔ r ∈ (w.bp b).objs ∧ Covers w.env (w.heap r) p.x.val p.y.val := by
  rw [layerGet_vec] at hg
  simp only [Prod.mk.injEq] at hg
  obtain ⟨h1, h2, h3, -⟩ := filterCollides_ok (fun r _ => (h.dir_range r).1) hg.1
  exact ⟨hg.2.symm, h1, h1.nodup (h.owned.nodup b),
    fun r => ⟨fun hr => ⟨h1.subset hr, h3 r hr⟩, fun hr => h2 r hr.1 hr.2⟩⟩

/-- A tuple and a vector are treated alike. -/
theorem C14_tuple (b : BpId) (x y : Num) (w : World) :
    layerGet b (.tup [x, y]) w = layerGet b (.vec ⟨x, y⟩) w := rfl

/-- The lookup never changes anything, and it succeeds exactly if the prototype data give a selection
box for every entity of the blueprint. -/
theorem C14_total {env : Env} {w : World} (h : Reachable env w) (b : BpId) (p : Vec) :
    (layerGet b (.vec p) w).2 = w ∧
    ((∃ rs, (layerGet b (.vec p) w).1 = .ok rs) ↔
      ∀ r ∈ (w.bp b).objs, ∃ x0 y0 x1 y1, HasBox w.env (w.heap r).name x0 y0 x1 y1) := by
  refine ⟨rfl, ?_, fun hb => filterCollides_total p hb⟩
  rintro ⟨rs, hrs⟩
  exact (filterCollides_ok (fun r _ => (h.dir_range r).1) hrs).2.2.2

example : (layerGet 0 (.vec ⟨.int 5, .flt (51/10)⟩) Sample.belts).1 = .ok [2] ∧
    (layerGet 0 (.vec ⟨.int 5, .flt (11/2)⟩) Sample.belts).1 = .ok [] ∧
    -- the decider (box 1 × 2) faces east, so it covers `(3.9, 4)` and not `(3, 4.9)`
    (layerGet 0 (.vec ⟨.flt (39/10), .int 4⟩) Sample.loaded).1 = .ok [0] ∧
    (layerGet 0 (.vec ⟨.int 3, .flt (49/10)⟩) Sample.loaded).1 = .ok [] := by decide +kernel

/-! ## C15 Deleting at a position deletes exactly what covers it -/

/-- Deleting at a point: exactly the covering entities disappear from the blueprint and are detached;
the order of the others, all other attributes and all other blueprints stay; a lookup at the point is
then empty. -/
theorem C15_delete_at {env : Env} {w w' : World} (h : Reachable env w) {b : BpId} {p : Vec}
    (hd : layerDelAt b (.vec p) w = (.ok (), w')) :
    (w'.bp b).objs.Sublist (w.bp b).objs ∧
    (∀ r, r ∈ (w'.bp b).objs ↔
      r ∈ (w.bp b).objs ∧ ¬ Covers w.env (w.heap r) p.x.val p.y.val) ∧
    (∀ r ∈ (w.bp b).objs, Covers w.env (w.heap r) p.x.val p.y.val →
      w'.heap r = { w.heap r with layer := none }) ∧
    (∀ r, (r ∉ (w.bp b).objs ∨ ¬ Covers w.env (w.heap r) p.x.val p.y.val) → w'.heap r = w.heap r) ∧
    (∀ c, c ≠ b → w'.bp c = w.bp c) ∧
    { w'.bp b with objs := [] } = { w.bp b with objs := [] } ∧
    w'.env = w.env ∧
    layerGet b (.vec p) w' = (.ok [], w') := by
  unfold layerDelAt at hd
  rw [M.bind_eq_ok] at hd
  obtain ⟨rs, v, hg, hd⟩ := hd
  obtain ⟨rfl, h1, h2, h3⟩ := C14_lookup h hg
  rw [dropAll (h.owned.nodup b) h2 (fun r hr => h1.subset hr)] at hd
  simp only [Prod.mk.injEq, true_and] at hd
  have hobj : (w'.bp b).objs = (v.bp b).objs.filter (· ∉ rs) := by
    rw [← hd]; simp [World.without]
  have hmem : ∀ r, r ∈ (w'.bp b).objs ↔
      r ∈ (v.bp b).objs ∧ ¬ Covers v.env (v.heap r) p.x.val p.y.val := by
    intro r
    rw [hobj, List.mem_filter]
    simp only [decide_eq_true_eq, h3]
    constructor
    · rintro ⟨hr, hn⟩; exact ⟨hr, fun hc => hn ⟨hr, hc⟩⟩
    · rintro ⟨hr, hn⟩; exact ⟨hr, fun hc => hn hc.2⟩
  have hkeep : ∀ r, (r ∉ (v.bp b).objs ∨ ¬ Covers v.env (v.heap r) p.x.val p.y.val) →
      w'.heap r = v.heap r := by
    intro r hr
    rw [← hd]
    simp only [World.without]
    rw [if_neg]
    rw [h3]
    rintro ⟨hr1, hr2⟩
    rcases hr with hr | hr <;> contradiction
  refine ⟨?_, hmem, ?_, hkeep, ?_, ?_, ?_, ?_⟩
  · rw [hobj]; exact List.filter_sublist
  · intro r hr hc
    rw [← hd]
    simp only [World.without]
    rw [if_pos ((h3 r).2 ⟨hr, hc⟩)]
  · intro c hc
    rw [← hd]
    simp [World.without, hc]
  · rw [← hd]
    simp [World.without]
  · rw [← hd]; rfl
  · have henv : w'.env = v.env := by rw [← hd]; rfl
    have hbox := (C14_total h b p).2.1 ⟨rs, by rw [hg]⟩
    rw [layerGet_vec]
    congr 1
    obtain ⟨ss, hss⟩ := filterCollides_total (env := w'.env) (heap := w'.heap) p (l := (w'.bp b).objs)
      (by
        intro r hr
        have := (hmem r).1 hr
        rw [henv, hkeep r (.inr this.2)]
        exact hbox r this.1)
    rw [hss]
    congr 1
    obtain ⟨s1, -, s3, -⟩ := filterCollides_ok (fun r hr => by
      have := (hmem r).1 hr
      rw [hkeep r (.inr this.2)]
      exact (h.dir_range r).1) hss
    refine List.eq_nil_iff_forall_not_mem.2 (fun r hr => ?_)
    have hm := (hmem r).1 (s1.subset hr)
    have hc := s3 r hr
    rw [henv, hkeep r (.inr hm.2)] at hc
    exact hm.2 hc

/-- If the lookup raises, nothing is deleted. -/
theorem C15_delete_at_fails {env : Env} {w w' : World} (h : Reachable env w) {b : BpId} {p : Vec} {e : Exc}
    (hd : layerDelAt b (.vec p) w = (.error e, w')) : w' = w := by
  unfold layerDelAt at hd
  cases hg : layerGet b (.vec p) w with
  | mk res v =>
    cases res with
    | error x =>
      rw [M.bind_error hg] at hd
      have : v = w := (congrArg Prod.snd hg).symm
      simp only [Prod.mk.injEq] at hd
      rw [← hd.2, this]
    | ok rs =>
      obtain ⟨rfl, h1, h2, h3⟩ := C14_lookup h hg
      rw [M.bind_ok hg, dropAll (h.owned.nodup b) h2 (fun r hr => h1.subset hr)] at hd
      simp at hd

/-- A deleted entity can be added to any blueprint. -/
theorem C15_delete_then_add {env : Env} {w w' : World} (h : Reachable env w) {b : BpId} {p : Vec}
    (hd : layerDelAt b (.vec p) w = (.ok (), w')) {r : Ref} (hr : r ∈ (w.bp b).objs)
    (hc : Covers w.env (w.heap r) p.x.val p.y.val) (c : BpId) :
    ∃ w'', layerAdd c (.ent r) w' = (.ok (), w'') ∧ r ∈ (w''.bp c).objs := by
  have h3 := (C15_delete_at h hd).2.2.1 r hr hc
  have hl : (w'.heap r).layer = none := by rw [h3]
  have hreach : Reachable env w' := by
    have := Reachable.step (.delAt b (.vec p)) h trivial
    have he : ((Op.delAt b (.vec p)).run w).2 = w' := congrArg Prod.snd hd
    rwa [he] at this
  obtain ⟨w'', h1, h2, -⟩ := C12_add_new (b := c) (.inl hl) (C11_free hreach hl c)
  exact ⟨w'', h1, h2.mem_iff.2 (List.mem_cons_self ..)⟩

example : (layerDelAt 0 (.vec ⟨.int 5, .flt (51/10)⟩) Sample.belts).1 = .ok () ∧
    ((layerDelAt 0 (.vec ⟨.int 5, .flt (51/10)⟩) Sample.belts).2.bp 0).objs = [1, 0] ∧
    ((layerDelAt 0 (.vec ⟨.int 5, .flt (51/10)⟩) Sample.belts).2.heap 2).layer = none := by
  decide +kernel

/-! ## C16 Removing one entity disturbs nothing else -/

/-- Removing a listed entity: exactly it is dropped and detached; everything else stays. -/
theorem C16_remove {env : Env} {w : World} (h : Reachable env w) {b : BpId} {r : Ref}
    (hr : r ∈ (w.bp b).objs) :
    ∃ w', layerRemove b (.ent r) w = (.ok (), w') ∧
      (w'.bp b).objs.Sublist (w.bp b).objs ∧
      (∀ s, s ∈ (w'.bp b).objs ↔ s ∈ (w.bp b).objs ∧ s ≠ r) ∧
      w'.heap r = { w.heap r with layer := none } ∧
      (∀ s, s ≠ r → w'.heap s = w.heap s) ∧
      (∀ c, c ≠ b → w'.bp c = w.bp c) ∧
      { w'.bp b with objs := [] } = { w.bp b with objs := [] } ∧
      w'.env = w.env := by
  refine ⟨_, layerDrop_mem (h.owned.nodup b) hr, ?_, ?_, ?_, ?_, ?_, ?_, rfl⟩
  · simp only [World.without, if_true]
    exact List.filter_sublist
  · intro s
    simp [World.without, List.mem_filter]
  · simp [World.without]
  · intro s hs
    simp [World.without, hs]
  · intro c hc
    simp [World.without, hc]
  · simp [World.without]

/-- `del entities[e]` does the same as `remove(e)`. -/
theorem C16_del_is_remove (b : BpId) (r : Ref) (w : World) :
    (Op.delObj b r).run w = (Op.remove b (.ent r)).run w := rfl

/-- Distinct exported numbers stay distinct. -/
theorem C16_numbers {env : Env} {w w' : World} (h : Reachable env w) {b : BpId} {r : Ref}
    (hr : r ∈ (w.bp b).objs) (hw : layerRemove b (.ent r) w = (.ok (), w'))
    (hd : ((w.bp b).objs.map (fun s => (w.heap s).auto)).Nodup) :
    ((w'.bp b).objs.map (fun s => (w'.heap s).auto)).Nodup := by
  obtain ⟨v, hv, h1, h2, h3, h4, -⟩ := C16_remove h hr
  rw [hw] at hv
  simp only [Prod.mk.injEq, true_and] at hv
  subst hv
  have : (w'.bp b).objs.map (fun s => (w'.heap s).auto) =
      (w'.bp b).objs.map (fun s => (w.heap s).auto) := by
    refine List.map_congr_left (fun s hs => ?_)
    rw [h4 s ((h2 s).1 hs).2]
  rw [this]
  exact (h1.map _).nodup hd

/-- Removing an entity that is not listed raises `ValueError` and changes nothing; removing something
that is not an entity raises `TypeError`. -/
theorem C16_remove_fails (w : World) (b : BpId) :
    (∀ r, r ∉ (w.bp b).objs → layerRemove b (.ent r) w = (.error .valueError, w)) ∧
    (∀ o : Obj, (∀ r, o ≠ .ent r) → layerRemove b o w = (.error .typeError, w)) := by
  refine ⟨fun r hr => ?_, fun o ho => ?_⟩
  · show layerDrop b r w = _
    unfold layerDrop
    rw [if_neg hr]
  · cases o with
    | ent r => exact absurd rfl (ho r)
    | tile t => rfl
    | other => rfl

/-- A removed entity can be added again, to this or any other blueprint. -/
theorem C16_remove_add {env : Env} {w w' : World} (h : Reachable env w) {b : BpId} {r : Ref}
    (hr : r ∈ (w.bp b).objs) (hw : layerRemove b (.ent r) w = (.ok (), w')) (c : BpId) :
    ∃ w'', layerAdd c (.ent r) w' = (.ok (), w'') ∧ (w''.bp c).objs.Perm (r :: (w'.bp c).objs) := by
  obtain ⟨v, hv, h1, h2, h3, h4, -⟩ := C16_remove h hr
  rw [hw] at hv
  simp only [Prod.mk.injEq, true_and] at hv
  subst hv
  have hl : (w'.heap r).layer = none := by rw [h3]
  have hreach : Reachable env w' := by
    have := Reachable.step (.remove b (.ent r)) h (h.owned.exist b r hr)
    have he : ((Op.remove b (.ent r)).run w).2 = w' := congrArg Prod.snd hw
    rwa [he] at this
  obtain ⟨w'', g1, g2, -⟩ := C12_add_new (b := c) (.inl hl) (C11_free hreach hl c)
  exact ⟨w'', g1, g2⟩

example : 0 ∈ (Sample.belts.bp 0).objs ∧
    ((layerRemove 0 (.ent 0) Sample.belts).2.bp 0).objs = [1, 2] ∧
    ((Sample.belts.bp 0).objs.map (fun s => (Sample.belts.heap s).auto)).Nodup := by decide +kernel

/-! ## C17 Lookup by imported id finds the first entity with that id -/

/-- What is returned is listed, has the id, and no entity listed before it has it; nothing is returned
exactly if no entity has the id. -/
theorem C17_get_by_id (w : World) (b : BpId) (id : Val) :
    (∀ r, getById w b id = some r ↔
      ∃ before after, (w.bp b).objs = before ++ r :: after ∧ IdIs (w.heap r).number id ∧
        ∀ s ∈ before, ¬ IdIs (w.heap s).number id) ∧
    (getById w b id = none ↔ ∀ r ∈ (w.bp b).objs, ¬ IdIs (w.heap r).number id) :=
  ⟨fun _ => getById_some, getById_none⟩

/-- Renumbering the export does not change the imported ids. -/
theorem C17_ids_stable (w : World) (b : BpId) (r : Ref) :
    ((w.sort b).heap r).number = (w.heap r).number := by
  obtain ⟨n, h⟩ := sort_heap w b r
  rw [h]

example : getById Sample.loaded 0 (.int 9) = some 1 ∧ (Sample.loaded.heap 1).auto = some 1 ∧
    getById Sample.loaded 0 (.int 1) = none := by decide +kernel

end Verif
