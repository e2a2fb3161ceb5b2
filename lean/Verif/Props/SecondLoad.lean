import Verif.Props.Load
import Verif.Props.Content
/-!
# A further import and the wires (C59)
-/
set_option autoImplicit false

namespace Verif
open Spec

/-- Where one entity only has the id, the first entity with the id is that entity. -/
private theorem first_of_unique {w : World} {l : List Ref} {id : Val} {s : Ref} (hs : s ∈ l)
    (hid : IdIs (w.heap s).number id) (hu : ∀ r ∈ l, r ≠ s → ¬ IdIs (w.heap r).number id) :
    FirstWithId w l id s := by
  induction l with
  | nil => cases hs
  | cons x l ih =>
    by_cases hx : x = s
    · subst hx; exact ⟨[], l, rfl, hid, by intro r hr; cases hr⟩
    · obtain ⟨p, q, rfl, _, h2⟩ := ih (List.mem_of_ne_of_mem (Ne.symm hx) hs)
        (fun r hr => hu r (List.mem_cons_of_mem _ hr))
      refine ⟨x :: p, q, rfl, hid, ?_⟩
      intro r hr
      rcases List.mem_cons.1 hr with rfl | hr
      · exact hu r (List.mem_cons_self ..) hx
      · exact h2 r hr

private theorem joins_equal {c c' : Conn} {a s : Ref} {sa sb : Int} {color : String}
    (h : Joins c a sa s sb color) (h' : Joins c' a sa s sb color) : Equal c c' := by
  obtain ⟨k, h⟩ := h
  obtain ⟨k', h'⟩ := h'
  refine ⟨k.trans k'.symm, ?_⟩
  unfold ends
  rcases h with ⟨e1, e2, e3, e4⟩ | ⟨e1, e2, e3, e4⟩ <;> rcases h' with ⟨f1, f2, f3, f4⟩ | ⟨f1, f2, f3, f4⟩ <;>
    rw [e1, e2, e3, e4, f1, f2, f3, f4] <;> first | rfl | exact Sym2.eq_swap

/-- What holds of all wires: after a successful import each wire, also each that was there before, stands in the
connection data that some entity of the blueprint was made with.  Wires that `connect` made are gone. -/
theorem C59_imported_only {env : Env} {w w' : World} (h : Reachable env w) {b : BpId} {data : Val}
    (hw : load b data w = (.ok (), w')) : AllImported w' b := (C29_wires h hw).2.1

/-- The wires that were imported are kept by a further import if no two entities of the blueprint then have the
same imported number.  (Missing: wires made by `connect`, and numbers that occur twice; both are lost in general,
see `C59_connect_lost` and `C59_attached_elsewhere`.) -/
theorem C59_kept_partial {env : Env} {w w' : World} (h : Reachable env w) {b : BpId} {data : Val}
    (hw : load b data w = (.ok (), w')) (hi : AllImported w b)
    (hu : NoClash w' b (w.bp b).objs) :
    ∀ c ∈ (w.bp b).conns, ∃ c' ∈ (w'.bp b).conns, Equal c c' := by
  intro c hc
  obtain ⟨a, ha, sa, s, sb, color, ⟨side, d, id, hl, hid, hf, h1, h2⟩, hj⟩ := hi c hc
  have hold := C45_old_entities_stay h hw
  obtain ⟨p, q, hpq, hs, -⟩ := hf
  have hsm : s ∈ (w.bp b).objs := by rw [hpq]; simp
  have hl' : Listed (w'.heap a).raw side color (.dict d) := by
    have := congrArg Entity.raw (hold a ha).2
    dsimp only at this
    rw [this]; exact hl
  have hr : Refers w' b a sa s sb color := by
    refine ⟨side, d, id, ?_, hid, ?_, h1, h2⟩
    · exact hl'
    · have hn := congrArg Entity.number (hold s hsm).2
      dsimp only at hn
      rw [← hn] at hs
      exact first_of_unique (hold s hsm).1 hs (fun r hr hne hir => hu a (hold a ha).1 id ⟨side, color, d, hl', hid⟩ s hsm r hr hne hs hir)
  obtain ⟨c', hc', hj'⟩ := (C29_wires h hw).1 a (hold a ha).1 sa s sb color hr
  exact ⟨c', hc', joins_equal hj hj'⟩

/-- Under the same condition, if the entities that were there and those of the data name only their own kind, no
wire joins an old entity to a new one. -/
theorem C59_separate_partial {env : Env} {w w' : World} (h : Reachable env w) {b : BpId} {data : Val}
    (hw : load b data w = (.ok (), w')) (hu : NoClash w' b (w.bp b).objs) (ho : Closed w' (w.bp b).objs)
    (hn : Closed w' ((w'.bp b).objs.filter (· ∉ (w.bp b).objs))) :
    ∀ c ∈ (w'.bp b).conns, ∃ r ∈ (w'.bp b).objs, ∃ s ∈ (w'.bp b).objs, c.fromE = some r ∧ c.toE = some s ∧
      (r ∈ (w.bp b).objs ↔ s ∈ (w.bp b).objs) := by
  intro c hc
  obtain ⟨a, ha, sa, s, sb, color, ⟨side, d, id, hl, hid, ⟨p, q, hpq, h1, h2⟩, -, -⟩, hj⟩ := C59_imported_only h hw c hc
  have hsm : s ∈ (w'.bp b).objs := by rw [hpq]; simp
  have hna : Names w' a id := ⟨side, color, d, hl, hid⟩
  have key : a ∈ (w.bp b).objs ↔ s ∈ (w.bp b).objs := by
    constructor
    · intro hao
      obtain ⟨n, hno, hnid⟩ := ho a hao id hna
      by_cases he : s = n
      · exact he ▸ hno
      · exact absurd h1 (hu a ha id hna n hno s hsm he hnid)
    · intro hso
      refine Classical.byContradiction (fun hao => ?_)
      obtain ⟨n, hno, hnid⟩ := hn a (by simp [ha, hao]) id hna
      simp only [List.mem_filter, decide_eq_true_eq] at hno
      exact hu a ha id hna s hso n hno.1 (fun he => hno.2 (he ▸ hso)) h1 hnid
  rcases hj.2 with ⟨e1, -, e3, -⟩ | ⟨e1, -, e3, -⟩
  · exact ⟨a, ha, s, hsm, e1, e3, key⟩
  · exact ⟨s, hsm, a, ha, e1, e3, key.symm⟩

namespace Sample

/-- The connection data of a decider wired to the entity with the given number. -/
def decRaw (n : Int) : Val :=
  .dict [("1", .dict [("red", .list [.dict [("entity_id", .int n), ("circuit_id", .int 2)]])])]

theorem decRaw_names {n : Int} {side color : String} {c : Dict} {id : Val} (h : Listed (decRaw n) side color (.dict c))
    (hid : List.lookup "entity_id" c = some id) : id = .int n := by
  obtain ⟨sides, colors, vs, h1, h2, h3, h4⟩ := h
  injection h1 with h1
  subst h1
  rw [List.mem_singleton] at h2
  injection h2 with _ h2
  injection h2 with h2
  subst h2
  rw [List.mem_singleton] at h3
  injection h3 with _ h3
  injection h3 with h3
  subst h3
  rw [List.mem_singleton] at h4
  injection h4 with h4
  subst h4
  exact (Option.some.inj hid).symm

/-- A decider and an arithmetic combinator wired to each other, with other numbers than the first sample. -/
def more : Val :=
  .dict [("blueprint", .dict [("entities", .list
    [.dict [("entity_number", .int 27), ("name", .str "dec"), ("position", pos 13 4), ("connections", decRaw 29)],
     .dict [("entity_number", .int 29), ("name", .str "ari"), ("position", pos 11 2)]])])]

/-- The sample blueprint after importing `more` as well. -/
def both : World := (load 0 more loaded).2

theorem both_run : load 0 more loaded = (.ok (), both) := run_eq (by decide +kernel)

theorem loaded_objs : (loaded.bp 0).objs = [1, 0, 2] := by decide +kernel
theorem both_objs : (both.bp 0).objs = [1, 4, 0, 3, 2] := by decide +kernel
theorem both_new : (both.bp 0).objs.filter (· ∉ (loaded.bp 0).objs) = [4, 3] := by decide +kernel

theorem both_names {a : Ref} {id : Val} (ha : a ∈ [1, 4, 0, 3, 2]) (h : Names both a id) :
    (a = 0 ∧ id = .int 9) ∨ (a = 3 ∧ id = .int 29) := by
  obtain ⟨side, color, c, hl, hid⟩ := h
  have hno : ∀ r ∈ [1, 4, 2], (both.heap r).raw = .none := by decide +kernel
  have h0 : (both.heap 0).raw = decRaw 9 := by decide +kernel
  have h3 : (both.heap 3).raw = decRaw 29 := by decide +kernel
  by_cases hr : a = 0
  · subst hr; rw [h0] at hl; exact .inl ⟨rfl, decRaw_names hl hid⟩
  by_cases hr' : a = 3
  · subst hr'; rw [h3] at hl; exact .inr ⟨rfl, decRaw_names hl hid⟩
  rw [hno a (by grind)] at hl
  obtain ⟨_, _, _, h, _⟩ := hl
  cases h

theorem both_numbers : [1, 4, 0, 3, 2].map (fun r => (both.heap r).number) =
    [some 9, some 29, some 7, some 27, some 12] := by decide +kernel

theorem idIs_int {n : Option Int} {z : Int} : IdIs n (.int z) ↔ n = some z := by
  constructor
  · intro h
    cases h with
    | num z' _ h => exact congrArg some (Rat.intCast_inj.1 h).symm
  · rintro rfl; exact .num z (.int z) rfl

theorem both_noClash : NoClash both 0 (loaded.bp 0).objs := by
  intro a ha id hn r hr s hs hne
  rw [both_objs] at ha hs
  rw [loaded_objs] at hr
  have h := both_numbers
  simp only [List.map_cons, List.map_nil, List.cons.injEq, and_true] at h
  rcases both_names ha hn with ⟨_, rfl⟩ | ⟨_, rfl⟩ <;> rw [idIs_int, idIs_int] <;> grind

theorem both_closed_old : Closed both (loaded.bp 0).objs := by
  intro a ha id h
  rw [loaded_objs] at ha ⊢
  have hn := both_numbers
  simp only [List.map_cons, List.map_nil, List.cons.injEq, and_true] at hn
  rcases both_names (by grind) h with ⟨_, rfl⟩ | ⟨rfl, _⟩
  · exact ⟨1, by decide, idIs_int.2 hn.1⟩
  · exact absurd ha (by decide)

theorem both_closed_new : Closed both ((both.bp 0).objs.filter (· ∉ (loaded.bp 0).objs)) := by
  rw [both_new]
  intro a ha id h
  have hn := both_numbers
  simp only [List.map_cons, List.map_nil, List.cons.injEq, and_true] at hn
  rcases both_names (by grind) h with ⟨rfl, _⟩ | ⟨_, rfl⟩
  · exact absurd ha (by decide)
  · exact ⟨4, by decide, idIs_int.2 hn.2.1⟩

end Sample

/-- Two imports with different numbers: the wires of the first stay. -/
example : ∀ c ∈ (Sample.loaded.bp 0).conns, ∃ c' ∈ (Sample.both.bp 0).conns, Equal c c' :=
  C59_kept_partial Sample.loaded_reachable Sample.both_run
    (C59_imported_only .init (Sample.run_eq (by decide +kernel) : load 0 Sample.data _ = (.ok (), Sample.loaded)))
    Sample.both_noClash

/-- … and those of the second join its own entities. -/
example : ∀ c ∈ (Sample.both.bp 0).conns, ∃ r ∈ (Sample.both.bp 0).objs, ∃ s ∈ (Sample.both.bp 0).objs,
    c.fromE = some r ∧ c.toE = some s ∧ (r ∈ (Sample.loaded.bp 0).objs ↔ s ∈ (Sample.loaded.bp 0).objs) :=
  C59_separate_partial Sample.loaded_reachable Sample.both_run Sample.both_noClash Sample.both_closed_old
    Sample.both_closed_new

example : (Sample.both.bp 0).conns = [⟨some 0, some 1, 1, 2, "red"⟩, ⟨some 3, some 4, 1, 2, "red"⟩] := by
  decide +kernel

/-! ### The property is false of the code -/

namespace Sample

/-- The sample belts with a wire between two of them. -/
def cabled : World := ((Op.connect 0 (some 1) (.int 1) (.int 1) "red").run belts).2

theorem cabled_reachable : Reachable env cabled :=
  .step (.connect 0 (some 1) (.int 1) (.int 1) "red") belts_reachable (by
    refine ⟨show 0 < belts.next by decide +kernel, ?_⟩
    decide +kernel)

/-- Data of a blueprint without anything. -/
def blank : Val := .dict [("item", .str "blueprint")]

end Sample

/-- A wire made by `connect` is lost when data is imported, even data of an empty blueprint. -/
theorem C59_connect_lost : ¬ ∀ (env : Env) (w w' : World) (b : BpId) (data : Val), Reachable env w →
    load b data w = (.ok (), w') → ∀ c ∈ (w.bp b).conns, ∃ c' ∈ (w'.bp b).conns, Equal c c' := by
  intro H
  have h1 : (load 0 Sample.blank Sample.cabled).1 = .ok () := by decide +kernel
  obtain ⟨c', hc', -⟩ := H Sample.env Sample.cabled _ 0 Sample.blank Sample.cabled_reachable (Sample.run_eq h1)
    ⟨some 0, some 1, 1, 1, "red"⟩ (by decide +kernel)
  have h2 : ((load 0 Sample.blank Sample.cabled).2.bp 0).conns = [] := by decide +kernel
  rw [h2] at hc'
  cases hc'

namespace Sample

/-- The sample data imported twice. -/
def twice : World := (load 0 data loaded).2

theorem twice_run : load 0 data loaded = (.ok (), twice) := run_eq (by decide +kernel)

theorem twice_names {a : Ref} {id : Val} (ha : a ∈ [1, 4, 0, 3, 2, 5]) (h : Names twice a id) : id = .int 9 := by
  obtain ⟨side, color, c, hl, hid⟩ := h
  have hno : ∀ r ∈ [1, 4, 2, 5], (twice.heap r).raw = .none := by decide +kernel
  have hyes : ∀ r ∈ [0, 3], (twice.heap r).raw = decRaw 9 := by decide +kernel
  by_cases hr : a ∈ [0, 3]
  · rw [hyes a hr] at hl; exact decRaw_names hl hid
  · rw [hno a (by grind)] at hl
    obtain ⟨_, _, _, h, _⟩ := hl
    cases h

theorem twice_objs : (twice.bp 0).objs = [1, 4, 0, 3, 2, 5] := by decide +kernel

theorem twice_closed_old : Closed twice (loaded.bp 0).objs := by
  intro a ha id h
  rw [loaded_objs] at ha ⊢
  cases twice_names (by grind) h
  have : (twice.heap 1).number = some 9 := by decide +kernel
  exact ⟨1, by decide, by rw [this]; exact .num 9 (.int 9) rfl⟩

theorem twice_new : (twice.bp 0).objs.filter (· ∉ (loaded.bp 0).objs) = [4, 3, 5] := by decide +kernel

theorem twice_closed_new : Closed twice ((twice.bp 0).objs.filter (· ∉ (loaded.bp 0).objs)) := by
  rw [twice_new]
  intro a ha id h
  cases twice_names (by grind) h
  have : (twice.heap 4).number = some 9 := by decide +kernel
  exact ⟨4, by decide, by rw [this]; exact .num 9 (.int 9) rfl⟩

end Sample

/-- Importing the same data twice: the references of the second copy are attached to entities of the first, although
the data names its own entities only. -/
theorem C59_attached_elsewhere : ¬ ∀ (env : Env) (w w' : World) (b : BpId) (data : Val), Reachable env w →
    load b data w = (.ok (), w') → Closed w' (w.bp b).objs →
    Closed w' ((w'.bp b).objs.filter (· ∉ (w.bp b).objs)) →
    ∀ c ∈ (w'.bp b).conns, ∀ r s, c.fromE = some r → c.toE = some s → (r ∈ (w.bp b).objs ↔ s ∈ (w.bp b).objs) := by
  intro H
  have h1 : (⟨some 3, some 1, 1, 2, "red"⟩ : Conn) ∈ (Sample.twice.bp 0).conns := by decide +kernel
  have := H Sample.env Sample.loaded Sample.twice 0 Sample.data Sample.loaded_reachable Sample.twice_run
    Sample.twice_closed_old Sample.twice_closed_new _ h1 3 1 rfl rfl
  rw [Sample.loaded_objs] at this
  exact absurd this (by decide)

end Verif
