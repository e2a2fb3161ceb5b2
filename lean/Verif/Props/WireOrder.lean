import Verif.Proofs.WireOrder
import Verif.Props.Sample
/-!
# C53: the order in which wires are listed
-/
set_option autoImplicit false

namespace Verif
open Spec

/-- `get_connections` lists each wire of the entity once, seen from the entity, by the number of the far end, and wires
to equal numbers in the order in which they were recorded. -/
theorem C53_listed {r : Ref} {b : BpId} {w w' : World} {cs : List Conn} (hb : (w.heap r).layer = some b)
    (h : getConnections r w = (.ok cs, w')) :
    cs.Perm (wiresOf r (w.bp b).conns) ∧ InNumberOrder w.heap cs ∧
      ∀ n, cs.filter (fun c => farNo w.heap c == n) =
        (wiresOf r (w.bp b).conns).filter (fun c => farNo w.heap c == n) := by
  obtain ⟨b', hb', h⟩ := getConnections_sorted h
  rw [hb] at hb'
  cases hb'
  exact h

/-- The wires can be listed if the far end of each has a number. -/
theorem C53_total {r : Ref} {b : BpId} {w : World} (hb : (w.heap r).layer = some b)
    (h : ∀ c ∈ wiresOf r (w.bp b).conns, farNo w.heap c ≠ none) : ∃ cs w', getConnections r w = (.ok cs, w') := by
  unfold getConnections
  rw [hb]
  dsimp only
  rw [wiresOf_eq, setBp_heap]
  have key : ∀ l : List Conn, (∀ c ∈ l, farNo w.heap c ≠ none) →
      ∃ keyed, l.mapM (fun c => do return ((← otherAuto w.heap c), c)) = .ok keyed ∧ ∀ p ∈ keyed, p.1 ≠ none := by
    intro l hl
    induction l with
    | nil => exact ⟨[], rfl, by simp⟩
    | cons c l ih =>
      obtain ⟨ks, h1, h2⟩ := ih (fun d hd => hl d (List.mem_cons_of_mem _ hd))
      have hc := hl c (List.mem_cons_self ..)
      unfold farNo at hc
      cases ht : c.toE with
      | none => rw [ht] at hc; exact absurd rfl hc
      | some t =>
        rw [ht] at hc
        have ho : otherAuto w.heap c = .ok (w.heap t).auto := by unfold otherAuto; rw [ht]
        refine ⟨((w.heap t).auto, c) :: ks, ?_, ?_⟩
        · rw [List.mapM_cons, h1, ho]
          rfl
        · intro p hp
          rcases List.mem_cons.1 hp with rfl | hp
          · exact hc
          · exact h2 p hp
  obtain ⟨ks, h1, h2⟩ := key _ h
  rw [h1]
  dsimp only
  have hm : mixedKeys (ks.map (·.1)) = false := by
    unfold mixedKeys
    have : (ks.map (·.1)).any (·.isNone) = false := by
      rw [List.any_eq_false]
      intro x hx
      obtain ⟨p, hp, rfl⟩ := List.mem_map.1 hx
      have := h2 p hp
      cases hp1 : p.1 with
      | none => exact absurd hp1 this
      | some z => simp
    rw [this]
    rfl
  rw [hm]
  exact ⟨_, _, rfl⟩

/-- In the export the references of an entity are listed by number under each connector and colour. -/
theorem C53_export {b : BpId} {v : Val} {o : Dict} {w w' : World} {ents : List Val} (he : toJson b w = (.ok v, w'))
    (ho : Content v o) (hents : ListAt o "entities" ents) {d : Dict} (hd : .dict d ∈ ents) (side : Int)
    (color : String) : RefsInOrder (refsAt d side color) :=
  export_order he ho hents hd side color

namespace Sample

/-- Three belts, the first wired to the third and then to the second. -/
def starOps : List Op :=
  [.make 0 (ent "belt" 1 1), .make 0 (ent "belt" 2 1), .make 0 (ent "belt" 3 1),
   .connect 0 (some 2) (.int 1) (.int 1) "red", .connect 1 (some 0) (.int 1) (.int 1) "red",
   .connect 0 (some 0) (.int 1) (.int 1) "red"]

def star : World := starOps.foldl (fun w op => (op.run w).2) (World.init env)

end Sample

example : (Sample.star.heap 0).layer = some 0 ∧
    (∀ c ∈ wiresOf 0 (Sample.star.bp 0).conns, farNo Sample.star.heap c ≠ none) ∧
    ((getConnections 0 Sample.star).1).toOption.map (·.map (·.toE)) = some [some 0, some 1, some 2] ∧
    (wiresOf 0 (Sample.star.bp 0).conns).map (·.toE) = [some 2, some 1, some 0] := by
  refine ⟨by decide +kernel, by decide +kernel, by decide +kernel, by decide +kernel⟩

example : ∃ v o ents d, (toJson 0 Sample.star).1 = .ok v ∧ Content v o ∧ ListAt o "entities" ents ∧ .dict d ∈ ents ∧
    (refsAt d 1 "red").map (entry "entity_id") = [some (.int 1), some (.int 1), some (.int 2), some (.int 3)] := by
  refine ⟨_, _, _, _, rfl, .wrapped _ _ rfl, .inl rfl, List.mem_cons_self .., by decide +kernel⟩

end Verif
