import Verif.Model.Gatherer
import Verif.Spec.Prototypes
import Verif.Proofs.Dict
import Verif.Proofs.WireExport
/-!
# What the gatherer writes, key by key
-/
set_option autoImplicit false

namespace Verif

theorem lookup_gatherFields (fields : List String) (p : GameProto) (k : String) :
    List.lookup k (gatherFields fields p) = if k ∈ fields then Dict.get? p.attrs k else none := by
  unfold gatherFields
  induction fields with
  | nil => rfl
  | cons f l ih =>
    rw [List.filterMap_cons]
    by_cases e : k = f
    · subst e
      rw [if_pos (List.mem_cons_self ..)]
      cases hk : Dict.get? p.attrs k with
      | none =>
        rw [Option.map_none, ih]
        split
        · exact hk
        · rfl
      | some v => rw [Option.map_some, lookup_cons_if, if_pos rfl]
    · have hm : (k ∈ f :: l) ↔ k ∈ l := by
        rw [List.mem_cons]
        exact ⟨fun h => h.resolve_left e, Or.inr⟩
      cases hk : Dict.get? p.attrs f with
      | none => rw [Option.map_none, ih]; simp only [hm]
      | some v => rw [Option.map_some, lookup_cons_if, if_neg e, ih]; simp only [hm]

/-- The condition of `gather_prototype_data`. -/
def Gathers (prototypes : Option (List String)) (p : GameProto) : Prop :=
  prototypes.all (fun l => hasValue l (Dict.get? p.attrs "type")) = true

theorem gatherPrototypes_fold (prototypes : Option (List String)) (fields : List String)
    (data : List (String × GameProto)) (out : Dict) (k : String) :
    (∀ v, List.lookup k (data.foldl (fun (out : Dict) (p : String × GameProto) =>
        if prototypes.all (fun l => hasValue l (Dict.get? p.2.attrs "type")) then
          Dict.set out p.1 (.dict (gatherFields fields p.2))
        else out) out) = some v → List.lookup k out = some v ∨
          ∃ p, (k, p) ∈ data ∧ Gathers prototypes p ∧ v = .dict (gatherFields fields p)) ∧
    ((data.map (·.1)).Nodup → ∀ p, (k, p) ∈ data → Gathers prototypes p →
      List.lookup k (data.foldl (fun (out : Dict) (p : String × GameProto) =>
        if prototypes.all (fun l => hasValue l (Dict.get? p.2.attrs "type")) then
          Dict.set out p.1 (.dict (gatherFields fields p.2))
        else out) out) = some (.dict (gatherFields fields p))) ∧
    (k ∉ data.map (·.1) → List.lookup k (data.foldl (fun (out : Dict) (p : String × GameProto) =>
        if prototypes.all (fun l => hasValue l (Dict.get? p.2.attrs "type")) then
          Dict.set out p.1 (.dict (gatherFields fields p.2))
        else out) out) = List.lookup k out) := by
  induction data generalizing out with
  | nil =>
    refine ⟨fun v h => .inl h, ?_, fun _ => rfl⟩
    intro _ p hp
    cases hp
  | cons q l ih =>
    rw [List.foldl_cons]
    obtain ⟨i1, i2, i3⟩ := ih (if prototypes.all (fun l => hasValue l (Dict.get? q.2.attrs "type")) then
          Dict.set out q.1 (.dict (gatherFields fields q.2)) else out)
    refine ⟨?_, ?_, ?_⟩
    · intro v hv
      rcases i1 v hv with h | ⟨p, hp, h⟩
      · split at h
        · next hg =>
          rw [lookup_set] at h
          split at h
          · next e => cases h; exact .inr ⟨q.2, by rw [e]; exact List.mem_cons_self .., hg, rfl⟩
          · exact .inl h
        · exact .inl h
      · exact .inr ⟨p, List.mem_cons_of_mem _ hp, h⟩
    · intro hnd p hp hg
      rw [List.map_cons, List.nodup_cons] at hnd
      rcases List.mem_cons.1 hp with rfl | hp
      · rw [i3 hnd.1, if_pos (show _ = true from hg), lookup_set, if_pos rfl]
      · exact i2 hnd.2 p hp hg
    · intro hk
      rw [List.map_cons, List.mem_cons, not_or] at hk
      rw [i3 hk.2]
      split
      · rw [lookup_set, if_neg hk.1]
      · rfl

theorem gatherPrototypes_sound {data : List (String × GameProto)} {prototypes : Option (List String)}
    {fields : List String} {k : String} {v : Val}
    (h : List.lookup k (gatherPrototypes data prototypes fields) = some v) :
    ∃ p, (k, p) ∈ data ∧ Gathers prototypes p ∧ v = .dict (gatherFields fields p) := by
  rcases (gatherPrototypes_fold prototypes fields data [] k).1 v h with h | h
  · cases h
  · exact h

theorem gatherPrototypes_complete {data : List (String × GameProto)} {prototypes : Option (List String)}
    {fields : List String} {k : String} {p : GameProto} (hnd : (data.map (·.1)).Nodup) (hp : (k, p) ∈ data)
    (hg : Gathers prototypes p) :
    List.lookup k (gatherPrototypes data prototypes fields) = some (.dict (gatherFields fields p)) :=
  (gatherPrototypes_fold prototypes fields data [] k).2.1 hnd p hp hg

theorem gathers_some {l : List String} {p : GameProto} :
    Gathers (some l) p ↔ ∃ s, Dict.get? p.attrs "type" = some (.str s) ∧ s ∈ l := by
  unfold Gathers
  rw [Option.all_some]
  unfold hasValue
  split
  · next s h =>
    rw [h, List.contains_iff_mem]
    exact ⟨fun hs => ⟨s, rfl, hs⟩, fun ⟨s', e, hs⟩ => by cases e; exact hs⟩
  · next h => exact ⟨fun e => (by cases e), fun ⟨s, e, _⟩ => absurd e (h s)⟩

/-- A signal of a gathered table has one of the given kinds and its own name. -/
theorem gatherSignals_sound (kind : String) (data : List (String × GameProto)) (out : Dict) {k : String} {v : Val}
    (h : List.lookup k (gatherSignals kind out data) = some v) :
    List.lookup k out = some v ∨ v = .dict [("name", .str k), ("type", .str kind)] := by
  unfold gatherSignals at h
  induction data generalizing out with
  | nil => exact .inl h
  | cons q l ih =>
    rw [List.foldl_cons] at h
    rcases ih _ h with h | h
    · split at h
      · exact .inl h
      · rw [lookup_set] at h
        split at h
        · next e => cases h; rw [e]; exact .inr rfl
        · exact .inl h
    · exact .inr h

open Classical in
/-- The table after one loop: a visible prototype of the list has the kind of the loop, all else is as before. -/
theorem lookup_gatherSignals (kind : String) (data : List (String × GameProto)) (out : Dict) (k : String) :
    List.lookup k (gatherSignals kind out data) = if Spec.Shown data k then
      some (.dict [("name", .str k), ("type", .str kind)]) else List.lookup k out := by
  unfold gatherSignals
  induction data generalizing out with
  | nil => rw [if_neg (by rintro ⟨p, hp, -⟩; cases hp)]; rfl
  | cons q l ih =>
    rw [List.foldl_cons, ih]
    by_cases h : Spec.Shown l k
    · rw [if_pos h, if_pos]
      obtain ⟨p, hp, hh⟩ := h
      exact ⟨p, List.mem_cons_of_mem _ hp, hh⟩
    · rw [if_neg h]
      cases hq : q.2.hidden with
      | true =>
        rw [if_pos rfl, if_neg]
        rintro ⟨p, hp, hh⟩
        rcases List.mem_cons.1 hp with e | hp
        · rw [← e] at hq; rw [hq] at hh; cases hh
        · exact h ⟨p, hp, hh⟩
      | false =>
        rw [if_neg (by decide), lookup_set]
        by_cases e : k = q.1
        · subst e
          rw [if_pos rfl, if_pos ⟨q.2, List.mem_cons_self .., hq⟩]
        · rw [if_neg e, if_neg]
          rintro ⟨p, hp, hh⟩
          rcases List.mem_cons.1 hp with e' | hp
          · rw [← e'] at e; exact e rfl
          · exact h ⟨p, hp, hh⟩

end Verif
