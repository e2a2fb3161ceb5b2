import Verif.Proofs.WireExport
import Verif.Proofs.Sort
/-!
# The order in which wires are listed
-/
set_option autoImplicit false

namespace Verif
open Spec

theorem insertBy_congr {α} {le le' : α → α → Bool} {x : α} {l : List α} (h : ∀ y ∈ l, le x y = le' x y) :
    insertBy le x l = insertBy le' x l := by
  induction l with
  | nil => rfl
  | cons y ys ih =>
    unfold insertBy
    rw [h y (List.mem_cons_self ..), ih (fun z hz => h z (List.mem_cons_of_mem _ hz))]

theorem sortBy_congr {α} {le le' : α → α → Bool} {l : List α} (h : ∀ x ∈ l, ∀ y ∈ l, le x y = le' x y) :
    sortBy le l = sortBy le' l := by
  induction l with
  | nil => rfl
  | cons y ys ih =>
    show insertBy le y (sortBy le ys) = insertBy le' y (sortBy le' ys)
    rw [ih (fun a ha b hb => h a (List.mem_cons_of_mem _ ha) b (List.mem_cons_of_mem _ hb))]
    exact insertBy_congr (fun z hz => h y (List.mem_cons_self ..) z (List.mem_cons_of_mem _ ((mem_sortBy _).1 hz)))

/-- The order by the number, with a missing number as 0. -/
def keyLe {α} (x y : Option Int × α) : Bool := decide (x.1.getD 0 ≤ y.1.getD 0)

theorem keyLe_total {α} : TotalPre (keyLe (α := α)) where
  total x y := by
    unfold keyLe
    rcases Int.le_total (x.1.getD 0) (y.1.getD 0) with h | h
    · exact .inl (decide_eq_true h)
    · exact .inr (decide_eq_true h)
  trans x y z h1 h2 := by
    unfold keyLe at *
    exact decide_eq_true (Int.le_trans (of_decide_eq_true h1) (of_decide_eq_true h2))

theorem autoLe_keyLe {α} {l : List (Option Int × α)} (h : mixedKeys (l.map (·.1)) = false) :
    ∀ x ∈ l, ∀ y ∈ l, autoLe x.1 y.1 = keyLe x y := by
  rintro ⟨x, a⟩ hx ⟨y, b⟩ hy
  unfold mixedKeys at h
  have key : ∀ n ∈ l, ∀ s ∈ l, n.1.isNone = true → s.1.isSome = true → False := by
    intro n hn s hs h1 h2
    have : (l.map (·.1)).any (·.isNone) = true := List.any_eq_true.2 ⟨n.1, List.mem_map.2 ⟨n, hn, rfl⟩, h1⟩
    have h' : (l.map (·.1)).any (·.isSome) = true := List.any_eq_true.2 ⟨s.1, List.mem_map.2 ⟨s, hs, rfl⟩, h2⟩
    rw [this, h'] at h
    cases h
  cases x with
  | none =>
    cases y with
    | none => rfl
    | some y => exact (key _ hx _ hy rfl rfl).elim
  | some x =>
    cases y with
    | none => exact (key _ hy _ hx rfl rfl).elim
    | some y => rfl

theorem mapM_keyed {heap : Ref → Entity} {l : List Conn} {keyed : List (Option Int × Conn)}
    (h : l.mapM (fun c => do return ((← otherAuto heap c), c)) = .ok keyed) :
    keyed.map (·.2) = l ∧ ∀ p ∈ keyed, otherAuto heap p.2 = .ok p.1 := by
  induction l generalizing keyed with
  | nil => cases h; exact ⟨rfl, by simp⟩
  | cons a l ih =>
    rw [List.mapM_cons] at h
    simp only [bind_eq_ok, pure_eq_ok, Except.ok.injEq] at h
    obtain ⟨x, ⟨y, hy, rfl⟩, xs, hxs, rfl⟩ := h
    obtain ⟨h1, h2⟩ := ih (by simpa using hxs)
    refine ⟨by rw [List.map_cons, h1], ?_⟩
    intro p hp
    rcases List.mem_cons.1 hp with rfl | hp
    · exact hy
    · exact h2 p hp

theorem otherAuto_farNo {heap : Ref → Entity} {c : Conn} {k : Option Int} (h : otherAuto heap c = .ok k) :
    farNo heap c = k := by
  unfold otherAuto at h
  unfold farNo
  split at h
  · cases h
  · rename_i t ht
    cases h
    rw [ht]
    rfl

theorem wiresOf_eq (r : Ref) (cs : List Conn) :
    (cs.filter (·.attachedTo r)).map (·.orientate r) = wiresOf r cs := by
  unfold wiresOf
  induction cs with
  | nil => rfl
  | cons c cs ih =>
    rw [List.filterMap_cons, List.filter_cons, ← ih]
    by_cases h1 : c.toE = some r
    · have ha : c.attachedTo r = true := (attachedTo_iff c r).2 (.inr h1)
      rw [if_pos ha, if_pos h1, List.map_cons]
      refine congrArg (· :: _) ?_
      unfold Conn.orientate
      rw [if_pos (beq_iff_eq.2 h1)]
      rfl
    · rw [if_neg h1]
      by_cases h2 : c.fromE = some r
      · have ha : c.attachedTo r = true := (attachedTo_iff c r).2 (.inl h2)
        rw [if_pos ha, if_pos h2, List.map_cons]
        refine congrArg (· :: _) ?_
        unfold Conn.orientate
        rw [if_neg (fun e => h1 (beq_iff_eq.1 e))]
      · have ha : ¬ c.attachedTo r = true := fun e => ((attachedTo_iff c r).1 e).elim h2 h1
        rw [if_neg ha, if_neg h2]

theorem getConnections_sorted {r : Ref} {w w' : World} {cs : List Conn} (h : getConnections r w = (.ok cs, w')) :
    ∃ b, (w.heap r).layer = some b ∧ cs.Perm (wiresOf r (w.bp b).conns) ∧ InNumberOrder w.heap cs ∧
      ∀ n, cs.filter (fun c => farNo w.heap c == n) = (wiresOf r (w.bp b).conns).filter (fun c => farNo w.heap c == n) := by
  have h0 := h
  unfold getConnections at h
  split at h
  · cases h
  · rename_i b hb
    dsimp only at h
    split at h
    · cases h
    · rename_i keyed hk
      split at h
      · cases h
      · rename_i hm
        cases h
        rw [setBp_heap] at hk
        obtain ⟨h1, h2⟩ := mapM_keyed hk
        rw [wiresOf_eq] at h1
        have hm : mixedKeys (keyed.map (·.1)) = false := by simpa using hm
        have hs := sortBy_congr (autoLe_keyLe hm)
        refine ⟨b, hb, ?_, ?_, ?_⟩
        · rw [← h1]; exact (sortBy_perm _ _).map _
        · rw [hs]
          unfold InNumberOrder
          rw [List.pairwise_map]
          refine (sortBy_sorted keyLe_total keyed).imp_of_mem ?_
          intro p q hp hq hle x y hx hy
          rw [otherAuto_farNo (h2 p ((mem_sortBy _).1 hp))] at hx
          rw [otherAuto_farNo (h2 q ((mem_sortBy _).1 hq))] at hy
          unfold keyLe at hle
          rw [hx, hy] at hle
          exact of_decide_eq_true hle
        · intro n
          rw [hs, ← h1, List.filter_map, List.filter_map]
          refine congrArg (List.map _) ?_
          have e : ∀ (l : List (Option Int × Conn)), (∀ p ∈ l, p ∈ keyed) → ∀ z : Option Int × Conn, z ∈ keyed → z.1 = n →
              l.filter ((fun c => farNo w.heap c == n) ∘ (·.2)) = l.filter (tie keyLe z) := by
            intro l hl z hz hzn
            refine List.filter_congr (fun p hp => ?_)
            dsimp only [Function.comp]
            rw [otherAuto_farNo (h2 p (hl p hp))]
            have := autoLe_keyLe hm
            unfold tie keyLe
            rw [Bool.eq_iff_iff]
            simp only [beq_iff_eq, Bool.and_eq_true, decide_eq_true_eq]
            subst hzn
            have k1 := this p (hl p hp) z hz
            have k2 := this z hz p (hl p hp)
            constructor
            · intro e; rw [e]; exact ⟨Int.le_refl _, Int.le_refl _⟩
            · intro e
              have hpz : ¬ (p.1.isNone ∧ z.1.isSome) ∧ ¬ (z.1.isNone ∧ p.1.isSome) := by
                constructor
                · rintro ⟨a1, a2⟩
                  unfold mixedKeys at hm
                  rw [List.any_eq_true.2 ⟨p.1, List.mem_map.2 ⟨p, hl p hp, rfl⟩, a1⟩,
                    List.any_eq_true.2 ⟨z.1, List.mem_map.2 ⟨z, hz, rfl⟩, a2⟩] at hm
                  cases hm
                · rintro ⟨a1, a2⟩
                  unfold mixedKeys at hm
                  rw [List.any_eq_true.2 ⟨z.1, List.mem_map.2 ⟨z, hz, rfl⟩, a1⟩,
                    List.any_eq_true.2 ⟨p.1, List.mem_map.2 ⟨p, hl p hp, rfl⟩, a2⟩] at hm
                  cases hm
              cases hp1 : p.1 with
              | none =>
                cases hz1 : z.1 with
                | none => rfl
                | some y => rw [hp1, hz1] at hpz; exact (hpz.1 ⟨rfl, rfl⟩).elim
              | some x =>
                cases hz1 : z.1 with
                | none => rw [hp1, hz1] at hpz; exact (hpz.2 ⟨rfl, rfl⟩).elim
                | some y =>
                  rw [hp1, hz1] at e
                  simp only [Option.getD_some] at e
                  exact congrArg some (Int.le_antisymm (by omega) (by omega))
          by_cases hz : ∃ z ∈ keyed, z.1 = n
          · obtain ⟨z, hz, hzn⟩ := hz
            rw [e _ (fun p hp => (mem_sortBy _).1 hp) z hz hzn, e _ (fun p hp => hp) z hz hzn]
            exact sortBy_filter_tie keyLe_total z keyed
          · have none : ∀ l : List (Option Int × Conn), (∀ p ∈ l, p ∈ keyed) →
                l.filter ((fun c => farNo w.heap c == n) ∘ (·.2)) = [] := by
              intro l hl
              rw [List.filter_eq_nil_iff]
              intro p hp
              dsimp only [Function.comp]
              rw [otherAuto_farNo (h2 p (hl p hp))]
              intro e
              exact hz ⟨p, hl p hp, beq_iff_eq.1 e⟩
            rw [none _ (fun p hp => (mem_sortBy _).1 hp), none _ (fun p hp => hp)]

theorem contrib_id {heap : Ref → Entity} {r t : Ref} {c : Conn} {s : Int} {k : String} {u : Val}
    (h : u ∈ contrib heap r t c s k) : entry "entity_id" u = some (autoVal (heap t).auto) := by
  unfold contrib at h
  rcases List.mem_append.1 h with h | h
  · split at h
    · rename_i hc
      cases List.mem_singleton.1 h
      rw [hc.1]
      rfl
    · cases h
  · split at h
    · cases List.mem_singleton.1 h
      rfl
    · cases h

theorem contribs_sorted {heap : Ref → Entity} {r : Ref} {cs : List Conn} (h : InNumberOrder heap cs) (s : Int)
    (k : String) : RefsInOrder (contribs heap r cs s k) := by
  have far : ∀ c u x, u ∈ (match c.toE with | some t => contrib heap r t c s k | none => []) →
      entry "entity_id" u = some (.int x) → farNo heap c = some x := by
    intro c u x hu hx
    unfold farNo
    split at hu
    · rename_i t ht
      rw [contrib_id hu] at hx
      rw [ht]
      show (heap t).auto = _
      cases ha : (heap t).auto with
      | none => rw [ha] at hx; cases hx
      | some z => rw [ha] at hx; cases hx; rfl
    · cases hu
  unfold RefsInOrder contribs
  rw [List.pairwise_flatMap]
  constructor
  · intro c _
    refine List.pairwise_of_forall_mem_list ?_
    intro u hu v hv x y hx hy
    have e1 := far c u x hu hx
    have e2 := far c v y hv hy
    rw [e1] at e2
    cases e2
    exact Int.le_refl _
  · refine h.imp ?_
    intro c d hcd u hu v hv x y hx hy
    exact hcd x y (far c u x hu hx) (far d v y hv hy)

theorem export_order {w w' : World} {b : BpId} {v : Val} {o : Dict}
    {ents : List Val} (he : toJson b w = (.ok v, w')) (ho : Content v o) (hents : ListAt o "entities" ents)
    {d : Dict} (hd : .dict d ∈ ents) (s : Int) (k : String) : RefsInOrder (refsAt d s k) := by
  obtain ⟨es, icons, hm, -, rfl⟩ := export_content he ho
  obtain rfl := listAt_entities hents
  obtain ⟨hlen, hget⟩ := mapL_get (fun r => Keeps.flips_entToJson w r) hm (SameUpToFlips.refl w)
  obtain ⟨i, hi⟩ := List.mem_iff_getElem?.1 hd
  have hi' : i < (w.bp b).objs.length := hlen ▸ (List.getElem?_eq_some_iff.1 hi).1
  obtain ⟨x, x', u, hx, hu, hent⟩ := hget i hi'
  rw [hi] at hu
  cases hu
  obtain ⟨d', ob, hdd, hc, h1, -, -, h4⟩ := entToJson_ok hent
  cases hdd
  rw [refsAt_export h4]
  obtain ⟨cs, hg, hf⟩ := connectionsToJson_ok.1 hc
  obtain ⟨b', hb', -, ho, -⟩ := getConnections_sorted hg
  obtain ⟨_, -, rfl, -⟩ := getConnections_ok hg
  rw [setBp_heap] at hf
  rw [foldlM_under hf]
  exact contribs_sorted ho s k

end Verif
