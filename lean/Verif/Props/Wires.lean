import Verif.Proofs.Repeat
import Verif.Props.Sample
/-!
# Properties C24, C25, C26, C27, C28, C30, C47: wires
-/
set_option autoImplicit false

namespace Verif
open Spec

/-! ## C24 Wire equality ignores which end is first -/

/-- `==` on wires: same colour and the same two end points, in either order. -/
theorem C24_equal (c d : Conn) : c.eqv d = true ↔ Equal c d := by
  rw [eqv_iff, equal_iff]

theorem C24_refl (c : Conn) : c.eqv c = true := (C24_equal c c).2 ⟨rfl, rfl⟩

theorem C24_symm (c d : Conn) : c.eqv d = d.eqv c := by
  rw [Bool.eq_iff_iff, C24_equal, C24_equal]
  exact ⟨fun h => ⟨h.1.symm, h.2.symm⟩, fun h => ⟨h.1.symm, h.2.symm⟩⟩

theorem C24_trans (c d e : Conn) (h : c.eqv d = true) (h' : d.eqv e = true) : c.eqv e = true := by
  rw [C24_equal] at *
  exact ⟨h.1.trans h'.1, h.2.trans h'.2⟩

/-- Turning a wire round keeps it equal; twice restores it. -/
theorem C24_flip (c : Conn) : c.flip.eqv c = true ∧ c.flip.flip = c ∧
    c.flip.fromE = c.toE ∧ c.flip.fromSide = c.toSide ∧ c.flip.toE = c.fromE ∧ c.flip.toSide = c.fromSide :=
  ⟨(eqv_iff _ _).2 (.inr rfl), rfl, rfl, rfl, rfl, rfl⟩

/-- `orientate` keeps the wire equal and makes an attached entity the first end. -/
theorem C24_orientate (c : Conn) (r : Ref) : (c.orientate r).eqv c = true ∧
    ((c.fromE = some r ∨ c.toE = some r) → (c.orientate r).fromE = some r) :=
  ⟨(eqv_iff _ _).2 (SameWire.orientate c r), fun h => orientate_to ((attachedTo_iff c r).2 h)⟩

/-- `flip_color` keeps the end points and swaps red and green; twice restores red and green wires. -/
theorem C24_flipColor (c : Conn) : c.flipColor.fromE = c.fromE ∧ c.flipColor.fromSide = c.fromSide ∧
    c.flipColor.toE = c.toE ∧ c.flipColor.toSide = c.toSide ∧
    (c.color = "red" → c.flipColor.color = "green" ∧ c.flipColor.flipColor = c) ∧
    (c.color = "green" → c.flipColor.color = "red" ∧ c.flipColor.flipColor = c) := by
  obtain ⟨f, t, a, b, k⟩ := c
  refine ⟨?_, ?_, ?_, ?_, ?_, ?_⟩
  · unfold Conn.flipColor; split <;> rfl
  · unfold Conn.flipColor; split <;> rfl
  · unfold Conn.flipColor; split <;> rfl
  · unfold Conn.flipColor; split <;> rfl
  · rintro ⟨⟩; exact ⟨rfl, rfl⟩
  · rintro ⟨⟩; exact ⟨rfl, rfl⟩

/-- Two equal wires with different first ends, and two that differ in the connector. -/
example : Equal ⟨some 1, some 2, 1, 2, "red"⟩ ⟨some 2, some 1, 2, 1, "red"⟩ ∧
    ¬ Equal ⟨some 1, some 2, 1, 2, "red"⟩ ⟨some 1, some 2, 2, 1, "red"⟩ := by
  rw [← C24_equal, ← C24_equal]; decide

/-! ## C25 A blueprint never records the same wire twice -/

/-- The worlds a user can reach without recolouring recorded wires. -/
inductive ReachableNoRecolor (env : Env) : World → Prop where
  | init : ReachableNoRecolor env (World.init env)
  | step {w : World} (op : Op) : ReachableNoRecolor env w → op.refsOk w → (∀ b i, op ≠ .flipColor b i) →
      ReachableNoRecolor env (op.run w).2

/-- After any history of calls, failing or not, that does not recolour wires, the recorded wires of every
blueprint are pairwise different. -/
theorem C25_distinct {env : Env} {w : World} (h : ReachableNoRecolor env w) (b : BpId) :
    (w.bp b).conns.Pairwise (fun c d => ¬ Equal c d) := by
  simp only [equal_iff]
  refine noDup_of_steps (k := ⟨false, true, true, true, true, true, true, true⟩) (w := World.init env) rfl ?_ (fun _ => List.Pairwise.nil) b
  induction h with
  | init => exact .refl
  | step op _ hr hn ih =>
    have : op.kind.recolors = false := by
      cases op <;> first | rfl | exact absurd rfl (hn _ _)
    exact ih.trans ((op.steps hr).mono ⟨by rw [this]; exact id, fun _ => rfl, fun _ => rfl, fun _ => rfl, fun _ => rfl, fun _ => rfl, fun _ => rfl, fun _ => rfl⟩)

/-- `connect` adds nothing if an equal wire is recorded, otherwise exactly the new wire at the end; every
other blueprint and all entities are untouched. -/
theorem C25_connect {w : World} {r s : Ref} {b : BpId} {sa sb : Int} {color : String}
    (hl : (w.heap r).layer = some b) :
    ∃ w', connect r (some s) (.int sa) (.int sb) color w = (.ok ⟨some r, some s, sa, sb, color⟩, w') ∧
      w'.heap = w.heap ∧ (∀ c, c ≠ b → w'.bp c = w.bp c) ∧
      ((∃ d ∈ (w.bp b).conns, Equal d ⟨some r, some s, sa, sb, color⟩) → w'.bp b = w.bp b) ∧
      ((∀ d ∈ (w.bp b).conns, ¬ Equal d ⟨some r, some s, sa, sb, color⟩) →
        w'.bp b = { w.bp b with conns := (w.bp b).conns ++ [⟨some r, some s, sa, sb, color⟩] }) := by
  have hc : Conn.new (some r) (some s) (.int sa) (.int sb) color = .ok ⟨some r, some s, sa, sb, color⟩ := rfl
  unfold connect
  rw [hc]
  dsimp only
  rw [hl]
  refine ⟨_, rfl, rfl, ?_, ?_, ?_⟩
  · intro c hne
    rw [setBp_bp, if_neg hne]
  · rintro ⟨d, hd, he⟩
    rw [setBp_bp_self]
    unfold addConn
    rw [if_pos (List.any_eq_true.2 ⟨d, hd, (C24_equal d ⟨some r, some s, sa, sb, color⟩).2 he⟩)]
  · intro hn
    rw [setBp_bp_self]
    unfold addConn
    rw [if_neg]
    intro ha
    obtain ⟨d, hd, he⟩ := List.any_eq_true.1 ha
    exact hn d hd ((C24_equal _ _).1 he)

/-- Recolouring can make two recorded wires equal. -/
theorem C25_recolor : ∃ w, Reachable Sample.env w ∧
    ¬ (w.bp 0).conns.Pairwise (fun c d => ¬ Equal c d) := by
  refine ⟨_, .step (.flipColor 0 0) (.step (.connect 0 (some 1) (.int 1) (.int 1) "green")
    (.step (.connect 0 (some 1) (.int 1) (.int 1) "red") Sample.belts_reachable
      ⟨by decide +kernel, by decide +kernel⟩) ⟨by decide +kernel, by decide +kernel⟩) trivial, ?_⟩
  simp only [← C24_equal]
  decide +kernel

/-- A history with two wires in one blueprint. -/
example : ∃ w, ReachableNoRecolor Sample.env w ∧ (w.bp 0).conns.length = 2 :=
  ⟨_, .step (.connect 1 (some 0) (.int 1) (.int 1) "red")
    (.step (.connect 0 (some 1) (.int 1) (.int 1) "green")
    (.step (.connect 0 (some 1) (.int 1) (.int 1) "red")
      (.step (.make 0 (Sample.ent "belt" 0 0)) (.step (.make 0 (Sample.ent "belt" 7 0)) .init trivial
        (by simp)) trivial (by simp)) ⟨by decide +kernel, by decide +kernel⟩ (by simp))
      ⟨by decide +kernel, by decide +kernel⟩ (by simp)) ⟨by decide +kernel, by decide +kernel⟩ (by simp),
    by decide +kernel⟩

/-! ## C26 Each wire is exported at both of its ends -/

/-- The exported number of the far end of a wire. -/
def farNumber (w : World) (p : Option Ref × Int) : Option Val := p.1.map (fun s => autoVal (w.heap s).auto)

/-- The export of the `i`-th entity lists, under each connector and colour, the number of the far end of
each wire attached there, once per wire end, and lists nothing under any other key. -/
theorem C26_export {env : Env} {w w' : World} (h : Reachable env w) {b : BpId} {v : Val} {o : Dict}
    {ents : List Val} (he : toJson b w = (.ok v, w')) (ho : Content v o) (hents : ListAt o "entities" ents) :
    ents.length = (w.bp b).objs.length ∧ ∀ i (hi : i < (w.bp b).objs.length), ∃ d, ents[i]? = some (.dict d) ∧
      List.lookup "entity_number" d = some (autoVal (w.heap (w.bp b).objs[i]).auto) ∧
      (∀ side color, ((refsAt d side color).map (entry "entity_id")).Perm
        ((farEnds (w.bp b).conns (w.bp b).objs[i] side color).map (farNumber w))) ∧
      ∀ raw side color u, List.lookup "connections" d = some raw → Listed raw side color u →
        ∃ z : Int, side = z.repr ∧ u ∈ refsAt d z color := by
  obtain ⟨hlen, hall⟩ := export_wires h.owned he ho hents
  refine ⟨hlen, fun i hi => ?_⟩
  obtain ⟨d, cs, hd, hn, hcs, -, hrefs, hfar, hlist⟩ := hall i hi
  refine ⟨d, hd, hn, fun side color => ?_, hlist⟩
  rw [hrefs]
  exact (contribs_ids hcs side color).trans ((hfar side color).map _)

/-- If the entities of the blueprint have different numbers and every wire joins two of them, then one
entity lists another (under some connector, by a cable of the given colour) exactly if it is listed by it. -/
theorem C26_symmetric {env : Env} {w w' : World} (h : Reachable env w) {b : BpId} {v : Val} {o : Dict}
    {ents : List Val} (he : toJson b w = (.ok v, w')) (ho : Content v o) (hents : ListAt o "entities" ents)
    (hnum : ∀ r ∈ (w.bp b).objs, ∀ s ∈ (w.bp b).objs,
      autoVal (w.heap r).auto = autoVal (w.heap s).auto → r = s)
    (hends : ∀ c ∈ (w.bp b).conns, ∀ r, (c.fromE = some r ∨ c.toE = some r) → r ∈ (w.bp b).objs)
    {i j : Nat} {d e : Dict} (hd : ents[i]? = some (.dict d)) (he' : ents[j]? = some (.dict e)) (color : String) :
    (∃ side u, u ∈ refsAt d side color ∧ entry "entity_id" u = List.lookup "entity_number" e) ↔
    (∃ side u, u ∈ refsAt e side color ∧ entry "entity_id" u = List.lookup "entity_number" d) := by
  obtain ⟨hlen, hall⟩ := C26_export h he ho hents
  have one : ∀ {i j : Nat} {d e : Dict}, ents[i]? = some (.dict d) → ents[j]? = some (.dict e) →
      ((∃ side u, u ∈ refsAt d side color ∧ entry "entity_id" u = List.lookup "entity_number" e) ↔
        ∃ c ∈ (w.bp b).conns, ∃ r s sa sb, (w.bp b).objs[i]? = some r ∧ (w.bp b).objs[j]? = some s ∧
          Joins c r sa s sb color) := by
    intro i j d e hd he'
    have hi : i < (w.bp b).objs.length := hlen ▸ (List.getElem?_eq_some_iff.1 hd).1
    have hj : j < (w.bp b).objs.length := hlen ▸ (List.getElem?_eq_some_iff.1 he').1
    obtain ⟨d', hd', -, hp, -⟩ := hall i hi
    rw [hd] at hd'; cases hd'
    obtain ⟨e', he2, hn, -⟩ := hall j hj
    rw [he'] at he2; cases he2
    rw [hn]
    constructor
    · rintro ⟨side, u, hu, hid⟩
      have := (hp side color).mem_iff.1 (List.mem_map.2 ⟨u, hu, rfl⟩)
      obtain ⟨p, hpm, hnu⟩ := List.mem_map.1 this
      rw [hid] at hnu
      obtain ⟨c, hc, sa, hfar⟩ := mem_farEnds.1 hpm
      obtain ⟨f, sb⟩ := p
      cases f with
      | none => cases hnu
      | some s =>
        have hs : s ∈ (w.bp b).objs := by
          refine hends c hc s ?_
          rcases hfar with hfar | hfar
          · exact .inr hfar.2.2.1
          · exact .inl hfar.2.2.1
        have e := hnum s hs _ (List.getElem_mem hj) (by simpa [farNumber] using hnu)
        refine ⟨c, hc, _, _, side, sb, List.getElem?_eq_getElem hi, List.getElem?_eq_getElem hj, sa, ?_⟩
        rcases hfar with ⟨h1, h2, h3, h4⟩ | ⟨h1, h2, h3, h4⟩
        · exact .inl ⟨h1, h2, by rw [h3, e], h4⟩
        · exact .inr ⟨by rw [h3, e], h4, h1, h2⟩
    · rintro ⟨c, hc, r, s, sa, sb, hr, hs, hj1, hj2⟩
      rw [List.getElem?_eq_getElem hi] at hr
      rw [List.getElem?_eq_getElem hj] at hs
      cases hr; cases hs
      have hm : (some (w.bp b).objs[j], sb) ∈ farEnds (w.bp b).conns (w.bp b).objs[i] sa color := by
        refine mem_farEnds.2 ⟨c, hc, hj1, ?_⟩
        rcases hj2 with ⟨h1, h2, h3, h4⟩ | ⟨h1, h2, h3, h4⟩
        · exact .inl ⟨h1, h2, h3, h4⟩
        · exact .inr ⟨h3, h4, h1, h2⟩
      have := (hp sa color).mem_iff.2 (List.mem_map.2 ⟨_, hm, rfl⟩)
      obtain ⟨u, hu, hid⟩ := List.mem_map.1 this
      exact ⟨sa, u, hu, hid⟩
  rw [one hd he', one he' hd]
  constructor <;>
  · rintro ⟨c, hc, r, s, sa, sb, hr, hs, hj1, hj2⟩
    refine ⟨c, hc, s, r, sb, sa, hs, hr, hj1, ?_⟩
    rcases hj2 with ⟨h1, h2, h3, h4⟩ | ⟨h1, h2, h3, h4⟩
    · exact .inr ⟨h1, h2, h3, h4⟩
    · exact .inl ⟨h1, h2, h3, h4⟩

/-- The sample blueprint exports; its numbers differ and its wire joins two of its entities. -/
example : ∃ v o ents w', toJson 0 Sample.loaded = (.ok v, w') ∧ Content v o ∧ ListAt o "entities" ents ∧
    (∀ r ∈ (Sample.loaded.bp 0).objs, ∀ s ∈ (Sample.loaded.bp 0).objs,
      autoVal (Sample.loaded.heap r).auto = autoVal (Sample.loaded.heap s).auto → r = s) ∧
    (∀ c ∈ (Sample.loaded.bp 0).conns, ∀ r, (c.fromE = some r ∨ c.toE = some r) →
      r ∈ (Sample.loaded.bp 0).objs) ∧ (Sample.loaded.bp 0).conns ≠ [] := by
  refine ⟨_, _, _, _, Sample.run_eq Sample.loaded_out, .wrapped _ _ rfl, .inl rfl, by decide +kernel, ?_,
    by decide +kernel⟩
  have hc : (Sample.loaded.bp 0).conns = [⟨some 0, some 1, 1, 2, "red"⟩] := by decide +kernel
  have ho : (Sample.loaded.bp 0).objs = [1, 0, 2] := by decide +kernel
  rw [hc, ho]
  simp only [List.mem_singleton, forall_eq, Option.some.injEq]
  rintro r (rfl | rfl) <;> simp

/-! ## C27 The export names the connector of the far end -/

/-- The connector number that a reference to the far end `p` has to carry if it is `z`: only entities with
two connectors get one. -/
def farConnector (w : World) (p : Option Ref × Int) (z : Int) : Option Val :=
  p.1.bind (fun s => if (w.heap s).klass.nrConnections = 2 then some (.int z) else none)

/-- What the code exports instead: as `circuit_id` every reference carries the connector of the *near* end.
(Provided that wires from an entity to itself join a connector with itself.) -/
theorem C27_near {env : Env} {w w' : World} (h : Reachable env w) {b : BpId} {v : Val} {o : Dict}
    {ents : List Val} (he : toJson b w = (.ok v, w')) (ho : Content v o) (hents : ListAt o "entities" ents)
    (hloop : ∀ c ∈ (w.bp b).conns, c.fromE = c.toE → c.fromSide = c.toSide)
    {i : Nat} (hi : i < (w.bp b).objs.length) : ∃ d, ents[i]? = some (.dict d) ∧ ∀ side color,
      ((refsAt d side color).map (fun u => (entry "entity_id" u, entry "circuit_id" u))).Perm
        ((farEnds (w.bp b).conns (w.bp b).objs[i] side color).map
          (fun p => (farNumber w p, farConnector w p side))) := by
  obtain ⟨-, hall⟩ := export_wires h.owned he ho hents
  obtain ⟨d, cs, hd, -, hcs, hsame, hrefs, hfar, -⟩ := hall i hi
  refine ⟨d, hd, fun side color => ?_⟩
  rw [hrefs]
  refine (contribs_near (w := w) hcs (fun c hc e => ?_) side color).trans ((hfar side color).map _)
  obtain ⟨c', hc', hs⟩ := hsame c hc
  rcases hs with rfl | rfl
  · exact hloop _ hc' e
  · exact (hloop _ hc' e.symm).symm

/-- If every wire to an entity with two connectors joins connectors of the same number, the export names
the right connector. Missing: all other wires; for these the claim is false (`C27_wrong`, `C27_false`). -/
theorem C27_partial {env : Env} {w w' : World} (h : Reachable env w) {b : BpId} {v : Val} {o : Dict}
    {ents : List Val} (he : toJson b w = (.ok v, w')) (ho : Content v o) (hents : ListAt o "entities" ents)
    (hsides : ∀ c ∈ (w.bp b).conns, c.fromSide = c.toSide)
    {i : Nat} (hi : i < (w.bp b).objs.length) : ∃ d, ents[i]? = some (.dict d) ∧ ∀ side color,
      ((refsAt d side color).map (fun u => (entry "entity_id" u, entry "circuit_id" u))).Perm
        ((farEnds (w.bp b).conns (w.bp b).objs[i] side color).map
          (fun p => (farNumber w p, farConnector w p p.2))) := by
  obtain ⟨d, hd, hp⟩ := C27_near h he ho hents (fun c hc _ => hsides c hc) hi
  refine ⟨d, hd, fun side color => (hp side color).trans (.of_eq (List.map_congr_left fun p hpm => ?_))⟩
  obtain ⟨c, hc, -, h | h⟩ := mem_farEnds.1 hpm
  · rw [← h.2.1, ← h.2.2.2, hsides c hc]
  · rw [← h.2.1, ← h.2.2.2, hsides c hc]

/-- A blueprint with a wire whose connectors have the same number exports. -/
example : ∃ w, Reachable Sample.env w ∧ (w.bp 0).conns ≠ [] ∧
    (∀ c ∈ (w.bp 0).conns, c.fromSide = c.toSide) ∧ (toJson 0 w).1.toOption.isSome = true :=
  ⟨_, .step (.connect 0 (some 1) (.int 1) (.int 1) "red")
    (.step (.make 0 (Sample.ent "dec" 0 0)) (.step (.make 0 (Sample.ent "ari" 4 0)) .init trivial) trivial)
    ⟨by decide +kernel, by decide +kernel⟩, by decide +kernel, by decide +kernel, by decide +kernel⟩

/-- A wire from connector `side` of an entity to a different connector of an entity with two connectors:
the export is wrong. -/
theorem C27_wrong {env : Env} {w w' : World} (h : Reachable env w) {b : BpId} {v : Val} {o : Dict}
    {ents : List Val} (he : toJson b w = (.ok v, w')) (ho : Content v o) (hents : ListAt o "entities" ents)
    (hloop : ∀ c ∈ (w.bp b).conns, c.fromE = c.toE → c.fromSide = c.toSide)
    {i : Nat} (hi : i < (w.bp b).objs.length) {side far : Int} {color : String} {s : Ref}
    (hw : (some s, far) ∈ farEnds (w.bp b).conns (w.bp b).objs[i] side color) (hne : far ≠ side)
    (htwo : (w.heap s).klass.nrConnections = 2) :
    ∃ d, ents[i]? = some (.dict d) ∧
      ¬ ((refsAt d side color).map (fun u => (entry "entity_id" u, entry "circuit_id" u))).Perm
        ((farEnds (w.bp b).conns (w.bp b).objs[i] side color).map
          (fun p => (farNumber w p, farConnector w p p.2))) := by
  obtain ⟨d, hd, hp⟩ := C27_near h he ho hents hloop hi
  refine ⟨d, hd, fun hq => ?_⟩
  have hm := ((hp side color).symm.trans hq).mem_iff.2 (List.mem_map.2 ⟨_, hw, rfl⟩)
  obtain ⟨⟨t, z⟩, -, e⟩ := List.mem_map.1 hm
  cases t with
  | none => simp [farNumber] at e
  | some t =>
    have e := (Prod.mk.injEq _ _ _ _ ▸ e).2
    simp only [farConnector, Option.bind_some, if_pos htwo] at e
    split at e
    · injection e with e; injection e with e; injection e with e; exact hne e.symm
    · cases e

/-- The full claim is false: in the sample blueprint the wire joins connector 1 of the decider with
connector 2 of the arithmetic combinator, but the reference to the latter says connector 1. -/
theorem C27_false : ∃ w b, Reachable Sample.env w ∧ (∃ c ∈ (w.bp b).conns, Joins c 0 1 1 2 "red") ∧
    (w.bp b).objs[1]? = some 0 ∧ (w.heap 1).klass.nrConnections = 2 ∧
    ∃ v o ents d, (toJson b w).1 = .ok v ∧ Content v o ∧ ListAt o "entities" ents ∧
      ents[1]? = some (.dict d) ∧
      (refsAt d 1 "red").map (entry "circuit_id") = [some (.int 1)] := by
  refine ⟨Sample.loaded, 0, Sample.loaded_reachable, ⟨⟨some 0, some 1, 1, 2, "red"⟩, by decide +kernel, rfl,
    .inl ⟨rfl, rfl, rfl, rfl⟩⟩, by decide +kernel, by decide +kernel, ?_⟩
  exact ⟨_, _, _, Sample.decOut, Sample.loaded_out, .wrapped _ _ rfl, .inl rfl, rfl, by decide +kernel⟩

/-! ## C28 Exporting is repeatable and does not change the blueprint -/

/-- An export, failing or not, changes nothing but the order of the ends of wires. -/
theorem C28_unchanged (b : BpId) (w : World) :
    let w' := (toJson b w).2
    w'.env = w.env ∧ w'.heap = w.heap ∧ w'.next = w.next ∧
      ∀ c, w'.bp c = { w.bp c with conns := (w'.bp c).conns } ∧
        List.Forall₂ Equal (w'.bp c).conns (w.bp c).conns := by
  have := (Keeps.flips_toJson w b).keeps w (SameUpToFlips.refl w)
  refine ⟨this.env, this.heap, this.next, fun c => ⟨this.bp c, ?_⟩⟩
  exact (this.conns c).imp (fun _ _ h => (equal_iff _ _).2 h)

/-- After any number of exports, of this and other blueprints, failing or not, the export gives the same
value or exception, if wires from an entity to itself join a connector with itself. Missing: wires between
two connectors of the same entity; for these the claim is false (`C28_false`). -/
theorem C28_repeat_partial {env : Env} {w : World} (h : Reachable env w) (b : BpId)
    (hloop : ∀ c ∈ (w.bp b).conns, c.fromE = c.toE → c.fromSide = c.toSide) (bs : List BpId) :
    (toJson b (bs.foldl (fun w c => (toJson c w).2) w)).1 = (toJson b w).1 := by
  refine Alike.toJson ⟨?_, hloop, fun r hr => h.owned.layer b r hr⟩
  suffices ∀ (bs : List BpId) w', SameUpToFlips w w' → SameUpToFlips w (bs.foldl (fun w c => (toJson c w).2) w') from
    this bs w (SameUpToFlips.refl w)
  intro bs
  induction bs with
  | nil => exact fun _ h => h
  | cons c bs ih => exact fun w' h' => ih _ ((Keeps.flips_toJson w c).keeps w' h')

/-- The sample blueprint has a wire and no wire from an entity to itself. -/
example : ∃ w, Reachable Sample.env w ∧ (w.bp 0).conns ≠ [] ∧
    (∀ c ∈ (w.bp 0).conns, c.fromE = c.toE → c.fromSide = c.toSide) ∧
    (toJson 0 w).1.toOption.isSome = true :=
  ⟨Sample.loaded, Sample.loaded_reachable, by decide +kernel, by decide +kernel, by decide +kernel⟩

/-- The full claim is false: a wire from one connector of a combinator to its other one is exported
differently the second time. -/
theorem C28_false : ∃ w, Reachable Sample.env w ∧
    (toJson 0 (toJson 0 w).2).1 ≠ (toJson 0 w).1 :=
  ⟨_, .step (.connect 0 (some 0) (.int 1) (.int 2) "red")
    (.step (.make 0 (Sample.ent "dec" 0 0)) .init trivial) ⟨by decide +kernel, by decide +kernel⟩,
    by decide +kernel⟩

/-! ## C30 Removing an entity removes its wires from the export -/

/-- Removing an entity keeps all wires, and the exports of the entities it was joined with still name its
number, which is its last number in the blueprint. -/
theorem C30_stale {env : Env} {w w1 w2 : World} (h : Reachable env w) {b : BpId} {r s : Ref} {v : Val} {o : Dict}
    {ents : List Val} {sa sb : Int} {color : String} {c : Conn}
    (hrem : layerRemove b (.ent r) w = (.ok (), w1)) (he : toJson b w1 = (.ok v, w2)) (ho : Content v o)
    (hents : ListAt o "entities" ents) (hs : s ∈ (w.bp b).objs) (hne : s ≠ r)
    (hc : c ∈ (w.bp b).conns) (hj : Joins c s sa r sb color) :
    (w1.bp b).conns = (w.bp b).conns ∧
    ∃ d, .dict d ∈ ents ∧ List.lookup "entity_number" d = some (autoVal (w.heap s).auto) ∧
      some (autoVal (w.heap r).auto) ∈ (refsAt d sa color).map (entry "entity_id") := by
  have hd : layerDrop b r w = (.ok (), w1) := hrem
  have h1 := h.removed hrem
  unfold layerDrop at hd
  split at hd
  swap
  · cases hd
  obtain rfl := (Prod.mk.inj hd).2
  refine ⟨by rw [setEnt_bp, setBp_bp_self], ?_⟩
  obtain ⟨hlen, hall⟩ := C26_export h1 he ho hents
  have hs' : s ∈ (w.bp b).objs.erase r := (List.mem_erase_of_ne hne).2 hs
  rw [setEnt_bp, setBp_bp_self] at hlen hall
  obtain ⟨i, hi, rfl⟩ := List.mem_iff_getElem.1 hs'
  obtain ⟨d, hd, hn, hp, -⟩ := hall i hi
  refine ⟨d, List.mem_of_getElem? hd, ?_, ?_⟩
  · rw [hn, setEnt_heap, if_neg hne, setBp_heap]
  · refine (hp sa color).mem_iff.2 (List.mem_map.2 ⟨(some r, sb), mem_farEnds.2 ⟨c, hc, hj.1, ?_⟩, ?_⟩)
    · rcases hj.2 with ⟨a, b, c, d⟩ | ⟨a, b, c, d⟩
      · exact .inl ⟨a, b, c, d⟩
      · exact .inr ⟨c, d, a, b⟩
    · simp [farNumber, setEnt_heap]

/-- Removing an entity that has no wires: if no wire has another end with the same number, no exported
reference names its number. Missing: entities with wires; for these the claim is false (`C30_stale`,
`C30_false`). -/
theorem C30_partial {env : Env} {w w1 w2 : World} (h : Reachable env w) {b : BpId} {r : Ref} {v : Val} {o : Dict}
    {ents : List Val} (hrem : layerRemove b (.ent r) w = (.ok (), w1)) (he : toJson b w1 = (.ok v, w2))
    (ho : Content v o) (hents : ListAt o "entities" ents)
    (hno : ∀ c ∈ (w.bp b).conns, c.fromE ≠ some r ∧ c.toE ≠ some r)
    (hnum : ∀ c ∈ (w.bp b).conns, ∀ s, (c.fromE = some s ∨ c.toE = some s) →
      (w.heap s).auto = (w.heap r).auto → s = r) :
    ∀ d, .dict d ∈ ents → ∀ raw side color u, List.lookup "connections" d = some raw →
      Listed raw side color u → entry "entity_id" u ≠ some (autoVal (w.heap r).auto) := by
  have hd : layerDrop b r w = (.ok (), w1) := hrem
  have h1 := h.removed hrem
  unfold layerDrop at hd
  split at hd
  swap
  · cases hd
  obtain rfl := (Prod.mk.inj hd).2
  obtain ⟨hlen, hall⟩ := C26_export h1 he ho hents
  rw [setEnt_bp, setBp_bp_self] at hlen hall
  intro d hd raw side color u hraw hu hid
  obtain ⟨i, hi, e⟩ := List.mem_iff_getElem.1 hd
  obtain ⟨d', hd', -, hp, hl⟩ := hall i (by rw [← hlen]; exact hi)
  rw [List.getElem?_eq_getElem hi, e] at hd'
  cases hd'
  obtain ⟨z, -, hz⟩ := hl raw side color u hraw hu
  obtain ⟨⟨f, q⟩, hpm, hnu⟩ := List.mem_map.1 ((hp z color).mem_iff.1 (List.mem_map.2 ⟨u, hz, hid⟩))
  obtain ⟨c, hc, -, hc'⟩ := mem_farEnds.1 hpm
  cases f with
  | none => cases hnu
  | some s =>
    have hs : c.fromE = some s ∨ c.toE = some s := by
      rcases hc' with hc' | hc'
      · exact .inr hc'.2.2.1
      · exact .inl hc'.2.2.1
    have hsr : s ≠ r := by
      rintro rfl
      rcases hs with hs | hs
      · exact (hno c hc).1 hs
      · exact (hno c hc).2 hs
    simp only [farNumber, Option.map_some, Option.some.injEq, setEnt_heap, if_neg hsr, setBp_heap] at hnu
    exact hsr (hnum c hc s hs (autoVal_inj hnu))

/-- Removing the locomotive of the sample blueprint: it has no wires, and its number is its own. -/
example : (layerRemove 0 (.ent 2) Sample.loaded).1 = .ok () ∧
    (toJson 0 (layerRemove 0 (.ent 2) Sample.loaded).2).1.toOption.isSome = true ∧
    (∀ c ∈ (Sample.loaded.bp 0).conns, c.fromE ≠ some 2 ∧ c.toE ≠ some 2) ∧
    (∀ c ∈ (Sample.loaded.bp 0).conns, ∀ s, (c.fromE = some s ∨ c.toE = some s) →
      (Sample.loaded.heap s).auto = (Sample.loaded.heap 2).auto → s = 2) := by
  refine ⟨by decide +kernel, by decide +kernel, by decide +kernel, ?_⟩
  have hc : (Sample.loaded.bp 0).conns = [⟨some 0, some 1, 1, 2, "red"⟩] := by decide +kernel
  rw [hc]
  simp only [List.mem_singleton, forall_eq, Option.some.injEq]
  rintro s (rfl | rfl) h
  · exact absurd h (by decide +kernel)
  · exact absurd h (by decide +kernel)

/-- The full claim is false: after removing the arithmetic combinator (number 1) of the sample blueprint,
the remaining entities are numbered 2 and 3, and one of them lists number 1. -/
theorem C30_false : ∃ w w1, Reachable Sample.env w ∧ layerRemove 0 (.ent 1) w = (.ok (), w1) ∧
    (w.heap 1).auto = some 1 ∧
    ∃ v o d e, (toJson 0 w1).1 = .ok v ∧ Content v o ∧ ListAt o "entities" [.dict d, .dict e] ∧
      List.lookup "entity_number" d = some (.int 2) ∧ List.lookup "entity_number" e = some (.int 3) ∧
      (refsAt d 1 "red").map (entry "entity_id") = [some (.int 1)] := by
  refine ⟨Sample.loaded, (layerRemove 0 (.ent 1) Sample.loaded).2, Sample.loaded_reachable,
    Sample.run_eq (by decide +kernel), by decide +kernel, ?_⟩
  exact ⟨_, _, Sample.decOut, Sample.locoOut, Sample.removed_out, .wrapped _ _ rfl, .inl rfl, rfl, rfl,
    by decide +kernel⟩

/-! ## C47 `connect()` with its default sides -/

/-- The claim is false in every state: `connect` with default sides raises `ValueError` and does nothing. -/
theorem C47_false (w : World) (r : Ref) (t : Option Ref) :
    (connect r t : M Conn) w = (.error .valueError, w) := rfl

/-- With integer sides, `connect` leaves a red wire between the two connectors. Missing: the default sides,
for which the claim is false (`C47_false`). -/
theorem C47_partial (w : World) (r s : Ref) (b : BpId) (hl : (w.heap r).layer = some b) (sa sb : Int) :
    ∃ w', (connect r (some s) (.int sa) (.int sb) : M Conn) w = (.ok ⟨some r, some s, sa, sb, "red"⟩, w') ∧
      ∃ c ∈ (w'.bp b).conns, Joins c r sa s sb "red" := by
  obtain ⟨w', hw, -, -, h1, h2⟩ := C25_connect (s := s) (sa := sa) (sb := sb) (color := "red") hl
  refine ⟨w', hw, ?_⟩
  by_cases e : ∃ d ∈ (w.bp b).conns, Equal d ⟨some r, some s, sa, sb, "red"⟩
  · rw [h1 e]
    obtain ⟨d, hd, he⟩ := e
    rcases (equal_iff _ _).1 he with rfl | rfl
    · exact ⟨_, hd, rfl, .inl ⟨rfl, rfl, rfl, rfl⟩⟩
    · exact ⟨_, hd, rfl, .inr ⟨rfl, rfl, rfl, rfl⟩⟩
  · rw [h2 (fun d hd he => e ⟨d, hd, he⟩)]
    exact ⟨_, List.mem_append_right _ (List.mem_singleton.2 rfl), rfl, .inl ⟨rfl, rfl, rfl, rfl⟩⟩

example : (Sample.belts.heap 0).layer = some 0 := by decide +kernel

end Verif
