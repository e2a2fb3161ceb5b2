import Verif.Props.Wires
import Verif.Spec.Placement
/-!
# Turning round and recolouring a recorded wire (C62)
-/
set_option autoImplicit false

namespace Verif
open Spec

private theorem wires_other (w : World) (b c : BpId) (p : Bp) (h : c ≠ b) : (w.setBp b p).bp c = w.bp c := by
  show (if c = b then p else w.bp c) = _
  rw [if_neg h]

private theorem wires_self (w : World) (b : BpId) (p : Bp) : (w.setBp b p).bp b = p := by
  show (if b = b then p else w.bp b) = _
  rw [if_pos rfl]

private theorem modify_get {α} (l : List α) (i : Nat) (f : α → α) (j : Nat) :
    (l.modify i f)[j]? = if j = i then (l[j]?).map f else l[j]? := by
  rw [List.getElem?_modify]
  by_cases h : i = j
  · subst h; simp
  · rw [if_neg (fun e => h e.symm)]; simp [h]

/-- Turning round the `i`-th wire: this wire has its ends swapped, the others and all else stay. -/
theorem C62_flip (w : World) (b : BpId) (i : Nat) :
    ∃ w' cs, (Op.flip b i).run w = (.ok (), w') ∧ OnlyWires w w' b cs ∧ cs.length = (w.bp b).conns.length ∧
      (∀ j, j ≠ i → cs[j]? = (w.bp b).conns[j]?) ∧
      ∀ c, (w.bp b).conns[i]? = some c → ∃ d, cs[i]? = some d ∧ d.color = c.color ∧
        d.fromE = c.toE ∧ d.fromSide = c.toSide ∧ d.toE = c.fromE ∧ d.toSide = c.fromSide := by
  refine ⟨_, (w.bp b).conns.modify i Conn.flip, rfl, ⟨rfl, rfl, rfl, fun c hc => wires_other _ _ _ _ hc, wires_self ..⟩,
    List.length_modify .., fun j hj => ?_, fun c hc => ?_⟩
  · rw [modify_get, if_neg hj]
  · exact ⟨c.flip, by rw [modify_get, if_pos rfl, hc]; rfl, rfl, rfl, rfl, rfl, rfl⟩

/-- Recolouring the `i`-th wire: this wire becomes red if it was green and green if not; the others and all else stay. -/
theorem C62_recolor (w : World) (b : BpId) (i : Nat) :
    ∃ w' cs, (Op.flipColor b i).run w = (.ok (), w') ∧ OnlyWires w w' b cs ∧ cs.length = (w.bp b).conns.length ∧
      (∀ j, j ≠ i → cs[j]? = (w.bp b).conns[j]?) ∧
      ∀ c, (w.bp b).conns[i]? = some c → ∃ d, cs[i]? = some d ∧ ends d = ends c ∧
        (c.color = "green" → d.color = "red") ∧ (c.color ≠ "green" → d.color = "green") := by
  refine ⟨_, (w.bp b).conns.modify i Conn.flipColor, rfl, ⟨rfl, rfl, rfl, fun c hc => wires_other _ _ _ _ hc, wires_self ..⟩,
    List.length_modify .., fun j hj => ?_, fun c hc => ?_⟩
  · rw [modify_get, if_neg hj]
  · refine ⟨c.flipColor, by rw [modify_get, if_pos rfl, hc]; rfl, ?_, ?_, ?_⟩
    · unfold Conn.flipColor ends; split <;> rfl
    · intro h; unfold Conn.flipColor; rw [if_pos (by simpa using h)]
    · intro h; unfold Conn.flipColor; rw [if_neg (by simpa using h)]

/-- Recolouring twice restores everything, if the wire is red or green. -/
theorem C62_recolor_twice_partial (w : World) (b : BpId) (i : Nat)
    (h : ∀ c, (w.bp b).conns[i]? = some c → c.color = "red" ∨ c.color = "green") :
    ((Op.flipColor b i).run ((Op.flipColor b i).run w).2).2 = w := by
  have hrun : ∀ u : World, ((Op.flipColor b i).run u).2 =
      u.setBp b { u.bp b with conns := (u.bp b).conns.modify i Conn.flipColor } := fun _ => rfl
  rw [hrun, hrun, wires_self]
  have hl : ((w.bp b).conns.modify i Conn.flipColor).modify i Conn.flipColor = (w.bp b).conns := by
    apply List.ext_getElem?
    intro j
    rw [modify_get, modify_get]
    by_cases hj : j = i
    · subst hj
      rw [if_pos rfl, if_pos rfl]
      cases hc : (w.bp b).conns[j]? with
      | none => rfl
      | some c =>
        rcases h c hc with h | h
        · rw [Option.map_some, Option.map_some, ((C24_flipColor c).2.2.2.2.1 h).2]
        · rw [Option.map_some, Option.map_some, ((C24_flipColor c).2.2.2.2.2 h).2]
    · rw [if_neg hj, if_neg hj]
  dsimp only
  rw [hl]
  unfold World.setBp
  cases w
  simp only [World.mk.injEq, true_and]
  funext c
  by_cases hc : c = b <;> simp [hc]

/-- Turning wires round does not show in the export, if wires from an entity to itself join a connector with itself. -/
theorem C62_flip_export_partial {env : Env} {w : World} (h : Reachable env w) (b c : BpId) (i : Nat)
    (hloop : ∀ c ∈ (w.bp b).conns, c.fromE = c.toE → c.fromSide = c.toSide) :
    (toJson b ((Op.flip c i).run w).2).1 = (toJson b w).1 := by
  refine Alike.toJson ⟨?_, hloop, fun r hr => h.owned.layer b r hr⟩
  have hrun : ((Op.flip c i).run w).2 = w.setBp c { w.bp c with conns := (w.bp c).conns.modify i Conn.flip } := rfl
  rw [hrun]
  refine ⟨rfl, rfl, rfl, fun d => ?_, fun d => ?_⟩
  · by_cases hd : d = c
    · subst hd; rw [wires_self]
    · rw [wires_other _ _ _ _ hd]
  · by_cases hd : d = c
    · subst hd; rw [wires_self]; exact forall₂_modify_flip ..
    · rw [wires_other _ _ _ _ hd]; exact forall₂_refl' SameWire.refl _

/-- For a wire between two connectors of the same entity the export changes. -/
theorem C62_flip_export_false : ∃ w, Reachable Sample.env w ∧
    (toJson 0 ((Op.flip 0 0).run w).2).1 ≠ (toJson 0 w).1 :=
  ⟨_, .step (.connect 0 (some 0) (.int 1) (.int 2) "red")
    (.step (.make 0 (Sample.ent "dec" 0 0)) .init trivial) ⟨by decide +kernel, by decide +kernel⟩,
    by decide +kernel⟩

/-- A wire of another colour than red and green does not get its colour back. -/
theorem C62_recolor_twice_false : ∃ w, Reachable Sample.env w ∧ (w.bp 0).conns.map (·.color) = ["blue"] ∧
    (((Op.flipColor 0 0).run ((Op.flipColor 0 0).run w).2).2.bp 0).conns.map (·.color) = ["red"] :=
  ⟨_, .step (.connect 0 (some 0) (.int 1) (.int 1) "blue")
    (.step (.make 0 (Sample.ent "belt" 0 0)) .init trivial) ⟨by decide +kernel, by decide +kernel⟩,
    by decide +kernel, by decide +kernel⟩

/-- The export of a recoloured wire: the entity at each of its ends lists the number of the other under the other
colour. -/
theorem C62_recolor_export {env : Env} {w w1 w' : World} (h : Reachable env w) {b : BpId} {i : Nat} {c : Conn}
    {r s : Ref} {sa sb : Int} (hc : (w.bp b).conns[i]? = some c) (hj : Joins c r sa s sb "red" ∨ Joins c r sa s sb "green")
    (h1 : (Op.flipColor b i).run w = (.ok (), w1)) {v : Val} {o : Dict} {ents : List Val} (he : toJson b w1 = (.ok v, w'))
    (ho : Content v o) (hents : ListAt o "entities" ents) {j : Nat} (hr : (w.bp b).objs[j]? = some r) :
    ∃ d u, ents[j]? = some (.dict d) ∧ u ∈ refsAt d sa (if c.color = "red" then "green" else "red") ∧
      entry "entity_id" u = some (autoVal (w.heap s).auto) := by
  have hw1 : Reachable env w1 := by
    have := Reachable.step (.flipColor b i) h trivial
    rwa [h1] at this
  obtain ⟨w2, cs, e1, hon, -, -, hi⟩ := C62_recolor w b i
  rw [h1] at e1
  cases e1
  obtain ⟨d, hd, hends, hg, hng⟩ := hi c hc
  have hobjs : (w1.bp b).objs = (w.bp b).objs := by rw [hon.this]
  have hconns : (w1.bp b).conns = cs := by rw [hon.this]
  obtain ⟨hlen, hall⟩ := C26_export hw1 he ho hents
  obtain ⟨hjl, hjr⟩ := List.getElem?_eq_some_iff.1 hr
  obtain ⟨e, he1, -, hperm, -⟩ := hall j (by rw [hobjs]; exact hjl)
  have hcol : d.color = if c.color = "red" then "green" else "red" := by
    rcases hj with hj | hj
    · rw [if_pos hj.1]; exact hng (by rw [hj.1]; decide)
    · rw [if_neg (by rw [hj.1]; decide)]; exact hg hj.1
  have hfar : (some s, sb) ∈ farEnds (w1.bp b).conns r sa d.color := by
    rw [hconns]
    refine mem_farEnds.2 ⟨d, List.mem_of_getElem? hd, rfl, ?_⟩
    have hJ : (c.fromE = some r ∧ c.fromSide = sa ∧ c.toE = some s ∧ c.toSide = sb) ∨
        (c.fromE = some s ∧ c.fromSide = sb ∧ c.toE = some r ∧ c.toSide = sa) := by
      rcases hj with hj | hj <;> exact hj.2
    unfold ends at hends
    rw [Sym2.eq_iff] at hends
    simp only [Prod.mk.injEq] at hends
    rcases hends with ⟨⟨a1, a2⟩, a3, a4⟩ | ⟨⟨a1, a2⟩, a3, a4⟩ <;> rw [a1, a2, a3, a4]
    · rcases hJ with ⟨b1, b2, b3, b4⟩ | ⟨b1, b2, b3, b4⟩
      · exact .inl ⟨b1, b2, b3, b4⟩
      · exact .inr ⟨b3, b4, b1, b2⟩
    · rcases hJ with ⟨b1, b2, b3, b4⟩ | ⟨b1, b2, b3, b4⟩
      · exact .inr ⟨b1, b2, b3, b4⟩
      · exact .inl ⟨b3, b4, b1, b2⟩
  have hor : (w1.bp b).objs[j]'(by rw [hobjs]; exact hjl) = r := by
    have : (w1.bp b).objs[j]? = some r := by rw [hobjs]; exact hr
    exact (List.getElem?_eq_some_iff.1 this).2
  have := (hperm sa d.color).mem_iff.2 (List.mem_map.2 ⟨_, (by rw [hor]; exact hfar), rfl⟩)
  obtain ⟨u, hu, hid⟩ := List.mem_map.1 this
  refine ⟨e, u, he1, by rw [← hcol]; exact hu, ?_⟩
  rw [hid]
  unfold farNumber
  rw [hon.heap]
  rfl

/-! ### Examples -/

/-- A wire that can be turned round and recoloured, in a blueprint without wires from an entity to itself. -/
example : (Sample.loaded.bp 0).conns[0]? = some ⟨some 0, some 1, 1, 2, "red"⟩ ∧
    (∀ c ∈ (Sample.loaded.bp 0).conns, c.fromE = c.toE → c.fromSide = c.toSide) ∧
    (Sample.loaded.bp 0).objs[1]? = some 0 := by
  refine ⟨?_, ?_, ?_⟩ <;> decide +kernel

/-- The recoloured blueprint can be exported. -/
example : (toJson 0 ((Op.flipColor 0 0).run Sample.loaded).2).1.toOption.isSome = true := by decide +kernel

end Verif
