import Verif.Proofs.AssignMake
import Verif.Proofs.WireExport
import Verif.Proofs.EntTrip
import Verif.Proofs.Classes
import Verif.Spec.Placement
import Verif.Props.Sample
/-!
# Assigning position, direction, number and name of an entity (C61)
-/
set_option autoImplicit false

namespace Verif
open Spec

private theorem setEnt_only (w : World) (r : Ref) (e : Entity) : OnlyEntity w (w.setEnt r e) r where
  env := rfl
  bp := rfl
  next := rfl
  heap q hq := by rw [setEnt_heap, if_neg hq]

private theorem setEnt_self (w : World) (r : Ref) (e : Entity) : (w.setEnt r e).heap r = e := by
  rw [setEnt_heap, if_pos rfl]

private theorem ofVal_point {v : Val} {x y : Num} (h : IsPoint v x y) : Vec.ofVal v = .ok (some ⟨x, y⟩) := by
  obtain ⟨d, rfl, hx, hy⟩ := h
  unfold Vec.ofVal Vec.new Dict.getItem Dict.get?
  dsimp only
  rw [hx, hy]
  rfl

/-- Assigning a position: the entity has exactly this position, and nothing else changes. -/
theorem C61_position {w : World} {r : Ref} {v : Val} {x y : Num} (h : IsPoint v x y) :
    ∃ w', (Op.setPos r v).run w = (.ok (), w') ∧ w'.heap r = { w.heap r with pos := ⟨x, y⟩ } ∧ OnlyEntity w w' r := by
  refine ⟨w.setEnt r { w.heap r with pos := ⟨x, y⟩ }, ?_, setEnt_self .., setEnt_only ..⟩
  show setPos r v w = _
  unfold setPos
  rw [ofVal_point h]

/-- A value that is not a point is refused and nothing changes. -/
theorem C61_position_refused {w : World} {r : Ref} {v : Val} (h : ∀ d, v ≠ .dict d) (hn : v ≠ .none) :
    (Op.setPos r v).run w = (.error .valueError, w) := by
  show setPos r v w = _
  unfold setPos Vec.ofVal
  cases v <;> first | rfl | exact absurd rfl hn | exact absurd rfl (h _)

/-- … likewise a point without one of its coordinates. -/
theorem C61_position_missing {w : World} {r : Ref} {d : Dict}
    (h : List.lookup "x" d = none ∨ (∃ x, List.lookup "x" d = some (.num x)) ∧ List.lookup "y" d = none) :
    (Op.setPos r (.dict d)).run w = (.error .keyError, w) := by
  show setPos r _ w = _
  unfold setPos Vec.ofVal Vec.new Dict.getItem Dict.get?
  dsimp only
  rcases h with h | ⟨⟨x, hx⟩, h⟩
  · rw [h]; rfl
  · rw [hx, h]; rfl

/-- Assigning a position is like making the entity there: the same entity, or the same exception. -/
theorem C61_position_like_make {l : Option BpId} {kw : Dict} {w w1 : World} {r : Ref} {v : Val}
    (h : newEntity l kw w = (.ok r, w1)) :
    newEntity l (Dict.set kw "position" v) w =
      match (setPos r v w1).1 with
      | .ok _ => (.ok r, (setPos r v w1).2)
      | .error x => (.error x, w) := by
  obtain ⟨e, he, rfl, rfl⟩ := newEntity_ok h
  obtain ⟨h1, h2, name, position, number, e', h3, h4, h5, h6, h7⟩ := Entity.new_ok.1 he
  obtain ⟨pos, dir, cb, a, g1, g2, g3, g4, rfl⟩ := Entity.finish_ok.1 h7
  have key : Entity.new w.env (w.customOf l) l (Dict.set kw "position" v) =
      Entity.finish w.env e' v (Dict.set kw "position" v) := by
    refine Entity.new_of (name := name) (number := number) ?_ ?_ ?_ (get_set_self ..) ?_ ?_
    · rw [mem_put_ne (by decide), h1]
    · rw [mem_put_ne (by decide), h2]
    · rw [get_set_ne (by decide), h3]
    · rw [getD_put_ne (by decide), h5]
    · unfold Entity.raw0 at h6 ⊢
      rw [getD_put_ne (by decide), h6]
  have hcb : Entity.cbOf w.env e' (Dict.set kw "position" v) = .ok cb := by
    rw [← g3]
    unfold Entity.cbOf
    rw [get_set_ne (by decide)]
  unfold newEntity
  rw [key]
  unfold Entity.finish
  rw [getD_put_ne (by decide), g2, hcb, eraseKeys_put (by decide), g4, getD_put_ne (by decide)]
  simp only [ok_bind]
  unfold setPos Entity.posOf
  cases hv : Vec.ofVal v with
  | error x => rfl
  | ok p =>
    cases p with
    | none => rfl
    | some p =>
      simp only [ok_bind, pure_eq_ok]
      unfold alloc World.setEnt
      simp only [Prod.mk.injEq, true_and, World.mk.injEq, and_true]
      funext q
      by_cases hq : q = w.next <;> simp [hq]

private theorem ofVal_direction {v : Val} {d : Direction} (h : IsDirection v d) : Direction.ofVal v = .ok d := by
  obtain ⟨h0, h8, n, rfl, k, hk1, hk2⟩ := h
  cases n with
  | int z =>
    have hz : z = 8 * k + d.n := by
      have h1 : (8 * k + d.n : Int) ≤ z := Rat.intCast_le_intCast.1 hk1
      have h2 : z < 8 * k + d.n + 1 := Rat.intCast_lt_intCast.1 hk2
      omega
    show Except.ok (Direction.new z) = _
    unfold Direction.new
    rw [hz, show (8 * k + d.n) % 8 = d.n by omega]
  | flt q =>
    unfold Direction.ofVal Num.mod
    dsimp only
    rw [if_neg (show ¬ (Num.int 8).val = 0 by decide)]
    dsimp only
    replace hk1 : ((8 * k + d.n : Int) : Rat) ≤ q := hk1
    replace hk2 : q < ((8 * k + d.n + 1 : Int) : Rat) := hk2
    have hfl : (q / 8).floor = k := by
      apply Int.le_antisymm
      · refine Int.lt_add_one_iff.1 (Rat.floor_lt_iff.2 ?_)
        have : ((8 * k + d.n + 1 : Int) : Rat) ≤ ((8 * (k + 1) : Int) : Rat) := Rat.intCast_le_intCast.2 (by omega)
        push_cast at *
        grind
      · refine Rat.le_floor_iff.2 ?_
        have : ((8 * k : Int) : Rat) ≤ ((8 * k + d.n : Int) : Rat) := Rat.intCast_le_intCast.2 (by omega)
        push_cast at *
        grind
    have hval : (Num.flt q).val - (Num.int 8).val * (((Num.flt q).val / (Num.int 8).val).floor : Int) = q - 8 * (k : Int) := by
      show q - (8 : Int) * ((q / (8 : Int)).floor : Int) = _
      rw [show ((8 : Int) : Rat) = 8 from rfl, hfl]
    rw [hval]
    unfold Num.trunc
    dsimp only
    have hfl2 : (q - 8 * (k : Int)).floor = d.n := by
      apply Int.le_antisymm
      · refine Int.lt_add_one_iff.1 (Rat.floor_lt_iff.2 ?_)
        push_cast at *
        grind
      · refine Rat.le_floor_iff.2 ?_
        push_cast at *
        grind
    have hnn : (0 : Rat) ≤ q - 8 * (k : Int) := by
      have : ((0 : Int) : Rat) ≤ d.n := Rat.intCast_le_intCast.2 h0
      push_cast at *
      grind
    rw [if_pos hnn, hfl2]

/-- Assigning a direction: the entity has exactly this direction, and nothing else changes. -/
theorem C61_direction {w : World} {r : Ref} {v : Val} {d : Direction} (h : IsDirection v d) :
    ∃ w', (Op.setDir r v).run w = (.ok (), w') ∧ w'.heap r = { w.heap r with dir := d } ∧ OnlyEntity w w' r := by
  refine ⟨w.setEnt r { w.heap r with dir := d }, ?_, setEnt_self .., setEnt_only ..⟩
  show setDir r v w = _
  unfold setDir
  rw [ofVal_direction h]

/-- Every number is a direction. -/
theorem C61_direction_total (n : Num) : ∃ d, IsDirection (.num n) d := by
  have h1 := Rat.floor_le n.val
  have h2 := Rat.lt_floor_add_one n.val
  refine ⟨⟨n.val.floor % 8⟩, by dsimp only; omega, by dsimp only; omega, n, rfl, n.val.floor / 8, ?_, ?_⟩
  · dsimp only
    rw [show 8 * (n.val.floor / 8) + n.val.floor % 8 = n.val.floor by omega]
    exact h1
  · dsimp only
    rw [show 8 * (n.val.floor / 8) + n.val.floor % 8 = n.val.floor by omega]
    exact h2

/-- Other values are refused and nothing changes. -/
theorem C61_direction_refused {w : World} {r : Ref} {v : Val} (h : v = .none ∨ (∃ l, v = .list l) ∨ ∃ d, v = .dict d) :
    (Op.setDir r v).run w = (.error .typeError, w) := by
  show setDir r v w = _
  unfold setDir Direction.ofVal
  rcases h with rfl | ⟨l, rfl⟩ | ⟨d, rfl⟩ <;> rfl

/-- Assigning a direction is like making the entity with it. -/
theorem C61_direction_like_make {l : Option BpId} {kw : Dict} {w w1 : World} {r : Ref} {v : Val}
    (h : newEntity l kw w = (.ok r, w1)) :
    newEntity l (Dict.set kw "direction" v) w =
      match (setDir r v w1).1 with
      | .ok _ => (.ok r, (setDir r v w1).2)
      | .error x => (.error x, w) := by
  obtain ⟨e, he, rfl, rfl⟩ := newEntity_ok h
  obtain ⟨h1, h2, name, position, number, e', h3, h4, h5, h6, h7⟩ := Entity.new_ok.1 he
  obtain ⟨pos, dir, cb, a, g1, g2, g3, g4, rfl⟩ := Entity.finish_ok.1 h7
  have key : Entity.new w.env (w.customOf l) l (Dict.set kw "direction" v) =
      Entity.finish w.env e' position (Dict.set kw "direction" v) := by
    refine Entity.new_of (name := name) (number := number) ?_ ?_ ?_ ?_ ?_ ?_
    · rw [mem_put_ne (by decide), h1]
    · rw [mem_put_ne (by decide), h2]
    · rw [get_set_ne (by decide), h3]
    · rw [get_set_ne (by decide), h4]
    · rw [getD_put_ne (by decide), h5]
    · unfold Entity.raw0 at h6 ⊢
      rw [getD_put_ne (by decide), h6]
  have hcb : Entity.cbOf w.env e' (Dict.set kw "direction" v) = .ok cb := by
    rw [← g3]
    unfold Entity.cbOf
    rw [get_set_ne (by decide)]
  have hd : Dict.getD (Dict.set kw "direction" v) "direction" (.int 0) = v := by
    unfold Dict.getD
    rw [get_set_self]
    rfl
  unfold newEntity
  rw [key]
  unfold Entity.finish
  rw [g1, hd, hcb, eraseKeys_put (by decide), g4, getD_put_ne (by decide)]
  simp only [ok_bind]
  unfold setDir
  cases hv : Direction.ofVal v with
  | error x => rfl
  | ok p =>
    simp only [ok_bind, pure_eq_ok]
    unfold alloc World.setEnt
    simp only [Prod.mk.injEq, true_and, World.mk.injEq, and_true]
    funext q
    by_cases hq : q = w.next <;> simp [hq]

/-- What the export says about the place: the position as it is, and the direction for entities that have one unless
they face up. -/
theorem C61_exported {env : Env} {w w' : World} (hw : Reachable env w) {r : Ref} {v : Val} (h : entToJson r w = (.ok v, w')) :
    ∃ o, v = .dict o ∧ List.lookup "name" o = some (.str (w.heap r).name) ∧
      List.lookup "position" o = some (.dict [("x", .num (w.heap r).pos.x), ("y", .num (w.heap r).pos.y)]) ∧
      (.Rotatable ∈ (w.heap r).klass.chain → (w.heap r).dir.n ≠ 0 →
        List.lookup "direction" o = some (.int (w.heap r).dir.n)) ∧
      ((.Rotatable ∉ (w.heap r).klass.chain ∨ (w.heap r).dir.n = 0) → List.lookup "direction" o = none) := by
  unfold entToJson at h
  rw [M.bind_get, M.bind_eq_ok] at h
  obtain ⟨o, v1, h1, h⟩ := h
  rw [M.bind_eq_ok] at h
  obtain ⟨d, v2, h2, h⟩ := h
  cases h
  rw [M.lift_eq] at h2
  simp only [Prod.mk.injEq] at h2
  obtain ⟨h2, rfl⟩ := h2
  have hc : ∃ c, (if o.isEmpty then
        [("entity_number", autoVal (w.heap r).auto), ("name", .str (w.heap r).name), ("position", (w.heap r).pos.toJson)]
      else [("entity_number", autoVal (w.heap r).auto), ("name", .str (w.heap r).name),
        ("position", (w.heap r).pos.toJson)] ++ [("connections", wireJson o)]) = baseObj (w.heap r) c := by
    cases o.isEmpty
    · exact ⟨some (wireJson o), rfl⟩
    · exact ⟨none, rfl⟩
  obtain ⟨c, hc⟩ := hc
  refine ⟨d, rfl, ?_, ?_, ?_⟩
  · rw [emitRest_lookup h2 (by simp)]; split <;> rfl
  · rw [emitRest_lookup h2 (by simp)]; split <;> rfl
  rw [hc] at h2
  obtain ⟨obj1, g1, g2⟩ := emitRest_ok.1 h2
  have hd : List.lookup "direction" d = List.lookup "direction" obj1 := by
    rcases g2 with ⟨-, rfl⟩ | ⟨c, d', -, -, rfl⟩
    · rfl
    · split
      · rfl
      · rw [lookup_set, if_neg (by decide)]
  have hb : List.lookup "direction" (baseObj (w.heap r) c) = none := by
    have := baseObj_get (w.heap r) c "direction"
    rw [show Dict.get? _ _ = List.lookup "direction" (baseObj (w.heap r) c) from rfl] at this
    rw [this]
    rfl
  have hR : .Rotatable ∈ (w.heap r).klass.chain →
      List.lookup "direction" obj1 = if (w.heap r).dir.n = 0 then none else some (.int (w.heap r).dir.n) := by
    intro hm
    obtain ⟨out, ho, hk⟩ := emitChain_get g1 (hw.klass r).1 (by
      intro m _ k hk
      have : ∀ k ∈ emitKeys m, k ∉ ["entity_number", "name", "position", "connections"] := by cases m <;> decide
      have := this k hk
      rw [baseObj_get]
      simp only [List.mem_cons, List.not_mem_nil, or_false, not_or] at this
      rw [if_neg this.1, if_neg this.2.1, if_neg this.2.2.1, if_neg this.2.2.2]) .Rotatable hm
    have := hk "direction" (by decide)
    unfold Dict.get? at this
    rw [this]
    injection ho with ho
    subst ho
    unfold Direction.isUp
    by_cases h0 : (w.heap r).dir.n = 0
    · simp [h0]
    · simp [h0]
  rw [hd]
  refine ⟨fun hm h0 => by rw [hR hm, if_neg h0], fun h0 => ?_⟩
  by_cases hm : .Rotatable ∈ (w.heap r).klass.chain
  · rcases h0 with h0 | h0
    · exact absurd hm h0
    · rw [hR hm, if_pos h0]
  · rw [emitChain_lookup g1 (fun m hm' hk => hm ?_), hb]
    have : m = .Rotatable := by
      revert hk
      cases m <;> decide
    exact this ▸ hm'

/-- The imported number of an entity can be changed; no export shows it. -/
theorem C61_number {w : World} {r : Ref} {n : Option Int} :
    ∃ w', (Op.setNumber r n).run w = (.ok (), w') ∧ w'.heap r = { w.heap r with number := n } ∧ OnlyEntity w w' r := by
  exact ⟨_, rfl, setEnt_self .., setEnt_only ..⟩

/-- A new name of an entity in a blueprint brings the behaviours of the row of its type and the custom ones of that
blueprint, and keeps the ones it had. -/
theorem C61_rename {w w' : World} {r : Ref} {s : String} (hs : (w.heap r).strict = true)
    (h : (Op.setName r (.str s)).run w = (.ok (), w')) :
    (w'.heap r).name = s ∧ OnlyEntity w w' r ∧ ∃ d t ms, List.lookup s w.env.entities = some (.dict d) ∧
      List.lookup "type" d = some (.str t) ∧ prototypeMixins t = some ms ∧
      (∀ m ∈ ms, m ∈ (w'.heap r).klass.chain) ∧ (∀ m ∈ (w.heap r).klass.chain, m ∈ (w'.heap r).klass.chain) ∧
      ∀ b cs, (w.heap r).layer = some b → List.lookup t (w.bp b).custom = some cs →
        ∀ m ∈ cs, m ∈ (w'.heap r).klass.chain := by
  replace h : entSetName r (.str s) w = (.ok (), w') := h
  unfold entSetName at h
  cases hn : (w.heap r).setName w.env (w.customOf (w.heap r).layer) (.str s) with
  | mk x e =>
    rw [hn] at h
    simp only [Prod.mk.injEq] at h
    obtain ⟨rfl, rfl⟩ := h
    obtain ⟨s', e1, ⟨h0, -⟩ | ⟨-, data, t, ms, k, hd, ht, hms, hk, rfl⟩⟩ := Entity.setName_ok hn
    · rw [hs] at h0; cases h0
    · cases e1
      obtain ⟨-, hold, hnew⟩ := Klass.extend_chain hk
      rw [setEnt_self]
      refine ⟨rfl, setEnt_only .., ?_⟩
      unfold mixinsFor at hms
      split at hms
      · rename_i t
        split at hms
        · cases hms
        · rename_i ms' hms'
          cases hms
          obtain ⟨d, rfl, hdt⟩ := subscript_ok.1 ht
          refine ⟨d, t, ms', hd, hdt, hms', ?_, ?_, ?_⟩
          · exact fun m hm => hnew m (List.mem_append.2 (.inr hm))
          · exact fun m hm => hold.subset hm
          · intro b cs hb hcs m hm
            refine hnew m (List.mem_append.2 (.inl ?_))
            rw [hb, show ((w.customOf (some b)).getD []).lookup t = _ from hcs]
            exact hm
      · split at hms <;> cases hms

/-! ### Examples -/

example : IsPoint (Sample.pos 3 4) (.int 3) (.int 4) := ⟨_, rfl, rfl, rfl⟩

example : IsDirection (.int (-2)) ⟨6⟩ := ⟨by decide, by decide, .int (-2), rfl, -1, by decide, by decide⟩

example : (newEntity none (Sample.ent "belt" 1 2) (World.init Sample.env)).1 = .ok 0 := by decide +kernel

/-- A belt is turned and moved: the export shows it. -/
example : ((do (Op.setDir 1 (.int 10)).run; (Op.setPos 1 (Sample.pos 9 9)).run; entToJson 1) Sample.belts).1 =
    .ok (.dict [("entity_number", .int 1), ("name", .str "belt"), ("position", Sample.pos 9 9),
      ("direction", .int 2)]) := by decide +kernel

/-- Renaming in a blueprint with custom behaviours. -/
example : ((Op.setName 1 (.str "fast-belt")).run
      ((Op.setCustom 0 [("transport-belt", [.Container])]).run Sample.belts).2).1 = .ok () ∧
    (((Op.setName 1 (.str "fast-belt")).run
      ((Op.setCustom 0 [("transport-belt", [.Container])]).run Sample.belts).2).2.heap 1).klass.chain =
      [.Container, .Rotatable, .TransportBelt, .CircuitCondition] := by decide +kernel

end Verif
