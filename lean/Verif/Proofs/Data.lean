import Verif.Proofs.View
import Verif.Spec.Load
import Verif.Proofs.Text
/-!
# Helper lemmas: imported and exported data
-/
set_option autoImplicit false

namespace Verif
open Spec

theorem content_iff {data : Val} {d : Dict} : unwrapData data = .ok d ↔ Content data d := by
  unfold unwrapData
  constructor
  · intro h
    split at h
    · rename_i o
      split at h
      · rename_i v hv
        rw [asDict_ok] at h
        subst h
        exact .wrapped _ _ hv
      · rename_i hv
        cases h
        exact .bare _ hv
    · split at h <;> cases h
    · split at h <;> cases h
    · cases h
  · intro h
    cases h with
    | wrapped o d h => simp only [Dict.get?, h, Val.asDict]
    | bare d h => simp only [Dict.get?, h]

theorem Content.unique {data : Val} {d d' : Dict} (h : Content data d) (h' : Content data d') : d = d' := by
  have h1 := content_iff.2 h
  rw [content_iff.2 h'] at h1
  exact (Except.ok.inj h1).symm

theorem listAt_iter {d : Dict} {k : String} {l : List Val} (h : ListAt d k l) :
    (Dict.getD d k (.list [])).iter = .ok l := by
  unfold Dict.getD Dict.get?
  rcases h with h | ⟨h, rfl⟩ <;> rw [h] <;> rfl

theorem buildAll_get {env : Env} {custom : Option Custom} {b : BpId} {l : List Val} {es : List Entity}
    (h : buildAll env custom b l = .ok es) :
    es.length = l.length ∧ ∀ i (hi : i < l.length) (hi' : i < es.length),
      ∃ kw, l[i] = .dict kw ∧ Entity.new env custom (some b) kw = .ok es[i] := by
  induction l generalizing es with
  | nil => cases h; exact ⟨rfl, fun i hi => absurd hi (by simp)⟩
  | cons v l ih =>
    unfold buildAll at h
    rw [List.mapM_cons] at h
    simp only [bind_eq_ok, pure_eq_ok, Except.ok.injEq] at h
    obtain ⟨e, ⟨kw, hk, he⟩, es', hes, rfl⟩ := h
    obtain ⟨h1, h2⟩ := ih hes
    refine ⟨by simp [h1], fun i hi hi' => ?_⟩
    cases i with
    | zero => exact ⟨kw, kwargs_ok.1 hk, he⟩
    | succ i => exact h2 i (Nat.lt_of_succ_lt_succ hi) (Nat.lt_of_succ_lt_succ hi')

theorem buildAll_perm {env : Env} {custom : Option Custom} {b : BpId} {l l' : List Val} {es : List Entity}
    (hp : l.Perm l') (h : buildAll env custom b l = .ok es) :
    ∃ es', buildAll env custom b l' = .ok es' ∧ es.Perm es' := by
  unfold buildAll at h ⊢
  induction hp generalizing es with
  | nil => cases h; exact ⟨[], rfl, .refl _⟩
  | cons v hp ih =>
    rw [List.mapM_cons] at h
    simp only [bind_eq_ok, pure_eq_ok, Except.ok.injEq] at h
    obtain ⟨e, he, es', hes, rfl⟩ := h
    obtain ⟨es'', h1, h2⟩ := ih hes
    refine ⟨e :: es'', ?_, h2.cons e⟩
    rw [List.mapM_cons]
    simp only [bind_eq_ok, pure_eq_ok, Except.ok.injEq]
    exact ⟨e, he, es'', h1, rfl⟩
  | swap u v l =>
    rw [List.mapM_cons, List.mapM_cons] at h
    simp only [bind_eq_ok, pure_eq_ok, Except.ok.injEq] at h
    obtain ⟨e, he, _, ⟨e', he', es', hes, rfl⟩, rfl⟩ := h
    refine ⟨e' :: e :: es', ?_, .swap _ _ _⟩
    rw [List.mapM_cons, List.mapM_cons]
    simp only [bind_eq_ok, pure_eq_ok, Except.ok.injEq]
    exact ⟨e', he', _, ⟨e, he, es', hes, rfl⟩, rfl⟩
  | trans _ _ ih1 ih2 =>
    obtain ⟨es', h1, p1⟩ := ih1 h
    obtain ⟨es'', h2, p2⟩ := ih2 h1
    exact ⟨es'', h2, p1.trans p2⟩

/-- An entity without its exported number. -/
def strip (e : Entity) : Entity := { e with auto := none }

/-- The entities of the loaded blueprint are the old ones and the new ones. -/
theorem base_vals_perm {w : World} (ho : Owned w) (b : BpId) (d : Dict) (col : Option Color)
    (ic : List (Option Val)) (es : List Entity) :
    (((w.base b d col ic es).vals b).map strip).Perm (((w.bp b).objs.map w.heap ++ es).map strip) := by
  unfold World.vals
  have h := ((base_inOrder w b d col ic es ho).same).map (fun r => strip ((w.base b d col ic es).heap r))
  rw [List.map_map]
  refine h.trans (List.Perm.of_eq ?_)
  rw [List.map_append, List.map_append, List.map_map]
  congr 1
  · refine List.map_congr_left (fun r hr => ?_)
    exact base_heap_old w b d col ic es (ho.exist b r hr)
  · refine List.ext_getElem (by simp) (fun i h1 h2 => ?_)
    simp only [List.length_map, List.length_range'] at h1
    simp only [List.getElem_map, List.getElem_range', Nat.one_mul]
    exact base_heap_new w b d col ic es h1

theorem eq_of_sorted {L L' : List Entity} (hp : L.Perm L')
    (h : L.Pairwise (fun a b => Before a.pos b.pos)) (h' : L'.Pairwise (fun a b => Before a.pos b.pos))
    (hd : L.Pairwise (fun a b => ¬ SamePos a.pos b.pos)) : L = L' := by
  induction L generalizing L' with
  | nil => exact (List.nil_perm.1 hp).symm
  | cons a L ih =>
    cases L' with
    | nil => exact absurd hp.symm (by simp)
    | cons b L' =>
      have e : a = b := by
        rcases List.mem_cons.1 (hp.mem_iff.1 (List.mem_cons_self ..)) with e | ha
        · exact e
        · rcases List.mem_cons.1 (hp.mem_iff.2 (List.mem_cons_self ..)) with e | hb
          · exact e.symm
          · have h1 := (List.pairwise_cons.1 h).1 b hb
            have h2 := (List.pairwise_cons.1 h').1 a ha
            have h3 := (List.pairwise_cons.1 hd).1 b hb
            refine absurd ?_ h3
            unfold Before at h1 h2
            unfold SamePos
            grind
      subst e
      rw [ih (List.Perm.cons_inv hp) (List.pairwise_cons.1 h).2 (List.pairwise_cons.1 h').2
        (List.pairwise_cons.1 hd).2]

/-- If all positions differ, the entities after loading do not depend on their order in the data. -/
theorem base_vals_eq {w : World} (ho : Owned w) (b : BpId) (d d' : Dict) (col : Option Color)
    (ic : List (Option Val)) {es es' : List Entity} (hp : es.Perm es')
    (hd : ((w.base b d col ic es).vals b).Pairwise (fun a b => ¬ SamePos a.pos b.pos)) :
    (w.base b d col ic es).vals b = (w.base b d' col ic es').vals b := by
  have hs : ∀ d es, (((w.base b d col ic es).vals b).map strip).Pairwise (fun a b => Before a.pos b.pos) := by
    intro d es
    rw [List.pairwise_map]
    unfold World.vals
    rw [List.pairwise_map]
    exact (base_inOrder w b d col ic es ho).sorted
  have hn : ∀ d es i (h : i < ((w.base b d col ic es).vals b).length),
      ((w.base b d col ic es).vals b)[i] =
        { strip ((w.base b d col ic es).vals b)[i] with auto := some ((i : Int) + 1) } := by
    intro d es i h
    have h' : i < ((w.base b d col ic es).bp b).objs.length := by simpa [World.vals] using h
    have e : ((w.base b d col ic es).vals b)[i] =
        (w.base b d col ic es).heap (((w.base b d col ic es).bp b).objs[i]) := by simp [World.vals]
    have := (base_inOrder w b d col ic es ho).numbered i h'
    rw [e, strip]
    dsimp only
    rw [← this]
  have hperm := ((base_vals_perm ho b d col ic es).trans
    ((hp.append_left ((w.bp b).objs.map w.heap)).map strip)).trans (base_vals_perm ho b d' col ic es').symm
  have heq := eq_of_sorted hperm (hs d es) (hs d' es') (by rw [List.pairwise_map]; exact hd)
  have hlen : ((w.base b d col ic es).vals b).length = ((w.base b d' col ic es').vals b).length := by
    simpa using congrArg List.length heq
  refine List.ext_getElem hlen (fun i h1 h2 => ?_)
  rw [hn d es i h1, hn d' es' i h2]
  have := List.getElem_of_eq heq (i := i) (by simpa using h1)
  rw [List.getElem_map, List.getElem_map] at this
  rw [this]

theorem refConn_iff {w : World} {b : BpId} {a : Ref} {side color : String} {v : Val} {cn : Conn} :
    refConn w b a side color v = .ok cn ↔
    ∃ c id sa sb, v = .dict c ∧ List.lookup "entity_id" c = some id ∧ Whole (.str side) sa ∧
      Whole (refSide c) sb ∧ cn = ⟨some a, getById w b id, sa, sb, color⟩ := by
  unfold refConn Conn.new
  simp only [bind_eq_ok, subscript_ok, asDict_ok, pure_eq_ok, Except.ok.injEq, pyInt_iff]
  constructor
  · rintro ⟨id, ⟨c, rfl, hid⟩, _, h, sa, ha, sb, hb, rfl⟩
    cases h
    exact ⟨c, id, sa, sb, rfl, hid, ha, hb, rfl⟩
  · rintro ⟨c, id, sa, sb, rfl, hid, ha, hb, rfl⟩
    exact ⟨id, ⟨c, rfl, hid⟩, c, rfl, sa, ha, sb, hb, rfl⟩

theorem joins_of_sameWire {cn : Conn} {a s : Ref} {sa sb : Int} {color : String}
    (h : SameWire cn ⟨some a, some s, sa, sb, color⟩) : Joins cn a sa s sb color := by
  rcases h with rfl | rfl
  · exact ⟨rfl, .inl ⟨rfl, rfl, rfl, rfl⟩⟩
  · exact ⟨rfl, .inr ⟨rfl, rfl, rfl, rfl⟩⟩

theorem sameWire_of_joins {c c' : Conn} {a s : Ref} {sa sb : Int} {color : String}
    (h : Joins c a sa s sb color) (h' : Joins c' a sa s sb color) : SameWire c c' := by
  obtain ⟨f, t, x, y, k⟩ := c
  obtain ⟨f', t', x', y', k'⟩ := c'
  simp only [Joins] at h h'
  obtain ⟨rfl, h⟩ := h
  obtain ⟨rfl, h'⟩ := h'
  rcases h with ⟨rfl, rfl, rfl, rfl⟩ | ⟨rfl, rfl, rfl, rfl⟩ <;>
    rcases h' with ⟨rfl, rfl, rfl, rfl⟩ | ⟨rfl, rfl, rfl, rfl⟩
  · exact .inl rfl
  · exact .inr rfl
  · exact .inr rfl
  · exact .inl rfl

theorem Entity.new_raw {env : Env} {custom : Option Custom} {layer : Option BpId} {kw : Dict}
    {e : Entity} (h : Entity.new env custom layer kw = .ok e) : e.raw = Dict.getD kw "connections" .none := by
  obtain ⟨-, -, name, position, number, e', -, -, -, hs, hf⟩ := Entity.new_ok.1 h
  obtain ⟨pos, dir, cb, a, -, -, -, -, rfl⟩ := Entity.finish_ok.1 hf
  rfl

theorem numberOf_iff {kw : Dict} {n : Option Int} :
    Entity.numberOf (Dict.getD kw "entity_number" .none) = .ok n ↔ NumberOf kw n := by
  unfold Dict.getD Dict.get?
  constructor
  · intro h
    cases hl : List.lookup "entity_number" kw with
    | none =>
      rw [hl] at h
      cases h
      exact .absent _ hl
    | some v =>
      rw [hl] at h
      simp only [Option.getD_some] at h
      unfold Entity.numberOf at h
      split at h
      · cases h; exact .null _ hl
      · cases h; exact .given _ _ hl
      · cases h
  · intro h
    cases h with
    | absent h => rw [h]; rfl
    | null h => rw [h]; rfl
    | given z h => rw [h]; rfl

end Verif
