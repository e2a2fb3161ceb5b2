import Verif.Spec.DataWires
import Verif.Proofs.Data
import Verif.Proofs.WireExport
/-!
# Helper lemmas for C84: entries of imported lists and the entities made from them
-/
set_option autoImplicit false

namespace Verif
open Spec

theorem IdIs.inj {n m : Option Int} {v : Val} (h : IdIs n v) (h' : IdIs m v) : n = m := by
  cases h with
  | none => cases h'; rfl
  | num z k hk =>
    cases h' with
    | num z' _ hk' => rw [hk] at hk'; exact congrArg some (by exact_mod_cast hk')
  | true => cases h'; rfl
  | false => cases h'; rfl

theorem NumberOf.inj {kw : Dict} {n m : Option Int} (h : NumberOf kw n) (h' : NumberOf kw m) : n = m := by
  have := numberOf_iff.2 h
  rw [numberOf_iff.2 h'] at this
  cases this; rfl

/-- What is stored of an entry of the imported list. -/
theorem load_entry {env : Env} {w w1 : World} (h : Reachable env w) {b : BpId} {data : Val} {d : Dict} {l : List Val}
    (hd : Content data d) (hl : ListAt d "entities" l) (hw : load b data w = (.ok (), w1)) {i : Nat} (hi : i < l.length) :
    ∃ kw, l[i]? = some (.dict kw) ∧ (w1.heap (w.next + i)).raw = (List.lookup "connections" kw).getD .none ∧
      NumberOf kw (w1.heap (w.next + i)).number := by
  obtain ⟨d', col, iv, ic, ev, es, cs, sv, scheds, h1, h2, h3, h4, h5, h6, h7, h8, h9, h10, h11, rfl⟩ :=
    (load_ok h.owned).1 hw
  cases Content.unique (content_iff.1 h1) hd
  rw [listAt_iter hl] at h5
  cases h5
  obtain ⟨k1, k2⟩ := buildAll_get h6
  obtain ⟨kw, hkw, hnew⟩ := k2 i hi (by omega)
  obtain ⟨-, p2, p3, -⟩ := SameButNumber.eqs (base_heap_new w b d col ic es (i := i) (by omega))
  refine ⟨kw, by rw [List.getElem?_eq_getElem hi, hkw], ?_, ?_⟩
  · show ((w.base b d col ic es).heap (w.next + i)).raw = _
    rw [p3, Entity.new_raw hnew]
    rfl
  · show NumberOf kw ((w.base b d col ic es).heap (w.next + i)).number
    rw [p2]
    exact numberOf_iff.1 (Entity.new_number hnew).1

theorem firstWithId_iff {w : World} {l : List Ref} {id : Val} {s : Ref}
    (hinj : ∀ r ∈ l, ∀ s ∈ l, (w.heap r).number = (w.heap s).number → r = s) (hnd : l.Nodup) :
    FirstWithId w l id s ↔ s ∈ l ∧ IdIs (w.heap s).number id := by
  constructor
  · rintro ⟨p, q, rfl, h, -⟩
    exact ⟨by simp, h⟩
  · rintro ⟨hs, h⟩
    obtain ⟨p, q, rfl⟩ := List.append_of_mem hs
    refine ⟨p, q, rfl, h, fun r hr h' => ?_⟩
    have := hinj r (by simp [hr]) s (by simp) (IdIs.inj h' h)
    subst this
    rw [List.nodup_append] at hnd
    exact hnd.2.2 r hr r (by simp) rfl

theorem mem_farEnds_joins {cs : List Conn} {r s : Ref} {sa sb : Int} {color : String} :
    (some s, sb) ∈ farEnds cs r sa color ↔ ∃ c ∈ cs, Joins c r sa s sb color := by
  rw [mem_farEnds]
  refine exists_congr fun c => and_congr_right fun _ => and_congr_right fun _ => or_congr_right ?_
  constructor
  · rintro ⟨h1, h2, h3, h4⟩
    exact ⟨h3, h4, h1, h2⟩
  · rintro ⟨h1, h2, h3, h4⟩
    exact ⟨h3, h4, h1, h2⟩

/-- Where no two wires join the same end points, the far ends at another entity differ. -/
theorem farEnds_nodup {cs : List Conn} {r s : Ref} (hrs : s ≠ r) {sa : Int} {color : String}
    (h : cs.Pairwise (fun c c' => ∀ a sa s sb color, ¬ (Joins c a sa s sb color ∧ Joins c' a sa s sb color))) :
    ((farEnds cs r sa color).filter (fun p => decide (p.1 = some s))).Nodup := by
  induction cs with
  | nil => exact List.nodup_nil
  | cons c cs ih =>
    rw [List.pairwise_cons] at h
    have e : farEnds (c :: cs) r sa color = farEnds [c] r sa color ++ farEnds cs r sa color := by
      simp [farEnds]
    rw [e, List.filter_append, List.nodup_append]
    refine ⟨?_, ih h.2, ?_⟩
    · unfold farEnds
      simp only [List.flatMap_cons, List.flatMap_nil, List.append_nil]
      by_cases h1 : c.color = color ∧ c.fromE = some r ∧ c.fromSide = sa <;>
        by_cases h2 : c.color = color ∧ c.toE = some r ∧ c.toSide = sa
      · rw [if_pos h1, if_pos h2, List.filter_eq_nil_iff.2]
        · exact List.nodup_nil
        · intro p hp
          simp only [List.cons_append, List.nil_append, List.mem_cons, List.not_mem_nil, or_false] at hp
          rcases hp with rfl | rfl
          · simpa [h2.2.1] using fun e => hrs e.symm
          · simpa [h1.2.1] using fun e => hrs e.symm
      · rw [if_pos h1, if_neg h2]
        exact List.Nodup.filter _ (List.nodup_singleton _)
      · rw [if_neg h1, if_pos h2]
        exact List.Nodup.filter _ (List.nodup_singleton _)
      · rw [if_neg h1, if_neg h2]
        exact List.nodup_nil
    · rintro ⟨f, sb⟩ hp p hp' rfl
      rw [List.mem_filter, decide_eq_true_eq] at hp hp'
      obtain ⟨hp, rfl⟩ := hp
      obtain ⟨c1, hc1, hj1⟩ := mem_farEnds_joins.1 hp
      obtain ⟨c2, hc2, hj2⟩ := mem_farEnds_joins.1 hp'.1
      rw [List.mem_singleton] at hc1
      subst hc1
      exact h.1 c2 hc2 r sa s sb color ⟨hj1, hj2⟩

end Verif
