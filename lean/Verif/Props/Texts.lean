import Verif.Proofs.WholePut
import Verif.Props.Assign
import Verif.Props.Load
/-!
# Property C75: whole numbers given as texts
-/
set_option autoImplicit false

namespace Verif
open Spec

/-- C75: a text spells at most one number … -/
theorem C75_unique {t : String} {y z : Int} (hy : Spells t y) (hz : Spells t z) : y = z := by
  have h1 := (pyIntStr_iff t y).2 hy
  rw [(pyIntStr_iff t z).2 hz] at h1
  injection h1 with h1
  exact h1.symm

/-- C75: … and the text that Python writes for a number spells it. -/
theorem C75_written (z : Int) : Spells z.repr z := spells_repr z

/-- C75: the sides of a wire are the whole numbers that the given values stand for. -/
theorem C75_wire (f t : Option Ref) (u v : Val) (color : String) (c : Conn) :
    Conn.new f t u v color = .ok c ↔
      c.fromE = f ∧ c.toE = t ∧ c.color = color ∧ Whole u c.fromSide ∧ Whole v c.toSide := by
  unfold Conn.new
  simp only [bind_eq_ok, pyInt_iff, pure_eq_ok, Except.ok.injEq]
  constructor
  · rintro ⟨a, ha, b, hb, rfl⟩
    exact ⟨rfl, rfl, rfl, ha, hb⟩
  · rintro ⟨rfl, rfl, rfl, ha, hb⟩
    exact ⟨_, ha, _, hb, rfl⟩

/-- C75: two spellings of the same sides give the same wire. -/
theorem C75_spelling (f t : Option Ref) (color : String) {s s' u u' : String} {y z : Int} (h1 : Spells s y)
    (h2 : Spells s' y) (h3 : Spells u z) (h4 : Spells u' z) :
    Conn.new f t (.str s) (.str u) color = Conn.new f t (.str s') (.str u') color := by
  rw [(C75_wire f t (.str s) (.str u) color ⟨f, t, y, z, color⟩).2 ⟨rfl, rfl, rfl, h1, h3⟩,
    (C75_wire f t (.str s') (.str u') color ⟨f, t, y, z, color⟩).2 ⟨rfl, rfl, rfl, h2, h4⟩]

/-- C75: an ASCII text that spells no number raises `ValueError`. -/
theorem C75_refused (f t : Option Ref) (v : Val) (color : String) {s : String} (ha : ∀ c ∈ s.toList, c.toNat < 128)
    (hn : ∀ z, ¬ Spells s z) : Conn.new f t (.str s) v color = .error .valueError := by
  have h : pyIntStr s = .error .valueError := by
    cases hp : pyIntStr s with
    | ok z => exact absurd ((pyIntStr_iff s z).1 hp) (hn z)
    | error e =>
      unfold pyIntStr at hp
      rw [if_pos (by rw [List.all_eq_true]; intro c hc; simpa using ha c hc)] at hp
      split at hp <;> cases hp
      rfl
  unfold Conn.new
  show (pyIntStr s >>= fun _ => _) = _
  rw [h]
  rfl

/-- C75: imported data with a reference under a key that spells no number, or with a `circuit_id` that stands for
none, are never loaded. -/
theorem C75_import {env : Env} {w : World} (h : Reachable env w) {b : BpId} {data : Val} {d : Dict}
    {l : List Val} (hd : Content data d) (hl : ListAt d "entities" l)
    {kw raw c : Dict} {side color : String} (hkw : Val.dict kw ∈ l)
    (hraw : List.lookup "connections" kw = some (.dict raw)) (href : Listed (.dict raw) side color (.dict c))
    (hbad : (∀ z, ¬ Spells side z) ∨ ∀ z, ¬ Whole (refSide c) z) :
    ∀ w', load b data w ≠ (.ok (), w') := by
  intro w' hw
  have hres := fun a ha side color v hv => C29_resolved h hw (a := a) ha (side := side) (color := color) (v := v) hv
  obtain ⟨d', col, iv, ic, ev, es, cs, sv, scheds, h1, h2, h3, h4, h5, h6, h7, h8, h9, h10, h11, rfl⟩ :=
    (load_ok h.owned).1 hw
  cases Content.unique (content_iff.1 h1) hd
  rw [listAt_iter hl] at h5
  cases h5
  obtain ⟨hlen, hget⟩ := buildAll_get h6
  obtain ⟨i, hi, hli⟩ := List.getElem_of_mem hkw
  have hi' : i < es.length := by rw [hlen]; exact hi
  obtain ⟨kw', hk, hne⟩ := hget i hi hi'
  rw [hli] at hk
  cases hk
  have hraw' : ((w.base b d col ic es).heap (w.next + i)).raw = .dict raw := by
    rw [(SameButNumber.eqs (base_heap_new w b d col ic es hi')).2.2.1, Entity.new_raw hne]
    unfold Dict.getD Dict.get?
    rw [hraw]
    rfl
  have hmem := (base_mem w b d col ic es h.owned).2 (.inr ⟨i, hi', rfl⟩)
  obtain ⟨c', id', s, sa, sb, hc, hid', hf, hsa, hsb⟩ := hres (w.next + i) (by rw [setBp_bp_self]; exact hmem)
    side color (.dict c) (by
      show Listed ((w.base b d col ic es).heap (w.next + i)).raw side color _
      rw [hraw']
      exact href)
  cases hc
  rcases hbad with hb | hb
  · exact hb sa hsa
  · exact hb sb hsb

/-- C75: assigning one of these settings succeeds exactly when the value stands for a whole number or is `None`. -/
theorem C75_accepts {w : World} {r : Ref} {m : Mx} {k : String} (v : Val) (hm : m ∈ (w.heap r).klass.chain)
    (hk : k ∈ settings m) (hw : k ∈ wholeSettings) :
    ((Op.setAttr r k v).run w).1 = .ok () ↔ v = .none ∨ ∃ z, Whole v z := by
  have hhas : (w.heap r).klass.has m = true := by
    unfold Klass.has
    simpa using Klass.mem_chain.1 hm
  rw [run_setAttr]
  unfold Entity.setAttr
  rw [attrOwner_settings hk]
  dsimp only
  rw [if_pos hhas, mxAssign_whole hw]
  have hi := readIntOrNone_iff v
  cases hx : readIntOrNone v with
  | error e =>
    constructor
    · intro h; cases h
    · rintro (rfl | ⟨z, hz⟩)
      · cases hx
      · rw [(hi (.int z)).2 (.inr ⟨z, hz, rfl⟩)] at hx; cases hx
  | ok o =>
    refine ⟨fun _ => ?_, fun _ => rfl⟩
    rcases (hi o).1 hx with ⟨h, -⟩ | ⟨z, hz, -⟩
    · exact .inl h
    · exact .inr ⟨z, hz⟩

/-- C75: … and the number is what is kept. -/
theorem C75_kept {w w' : World} {r : Ref} {k : String} {v : Val} {z : Int} (hw : k ∈ wholeSettings)
    (hz : Whole v z) (h : (Op.setAttr r k v).run w = (.ok (), w')) :
    List.lookup k (w'.heap r).attrs = some (.int z) := by
  rw [run_setAttr] at h
  injection h with h1 h2
  rw [← h2, setEnt_heap, if_pos rfl]
  unfold Entity.setAttr at h1 ⊢
  split
  · rename_i hn; rw [hn] at h1; cases h1
  · rename_i m hm
    rw [hm] at h1
    dsimp only at h1 ⊢
    split
    · rw [mxAssign_whole hw, (readIntOrNone_iff v (.int z)).2 (.inr ⟨z, hz, rfl⟩)]
      show List.lookup k (Dict.set _ k _) = _
      rw [lookup_set, if_pos rfl]
    · rename_i hn; rw [if_neg hn] at h1; cases h1

/-! ### The hypotheses can be met -/

/-- ` +1_0` and a line feed. -/
example : Spells " +1_0\n" 10 :=
  ⟨[' '], ['+'], ['1', '_', '0'], ['\n'], 10, by decide, by unfold BlankChar; decide, by unfold BlankChar; decide,
    .under (l := ['1']) (n := 1) 0 (.one 1), .inr (.inl ⟨rfl, rfl⟩)⟩

/-- No number: two underscores, an underscore at the end, a fraction, a blank after the sign, nothing at all. -/
example : ∀ t ∈ ["1__0", "1_", "1.0", "- 1", ""], ∀ z, ¬ Spells t z := by
  intro t ht z h
  have := (pyIntStr_iff t z).2 h
  have hn : ∀ t ∈ ["1__0", "1_", "1.0", "- 1", ""], pyIntStr t = .error .valueError := by decide +kernel
  rw [hn t ht] at this
  cases this

example : Conn.new (some 0) (some 1) (.str "01") (.str " 2") "red" =
    Conn.new (some 0) (some 1) (.str "1") (.str "+2") "red" :=
  C75_spelling (y := 1) (z := 2) _ _ _ ((pyIntStr_iff ..).1 (by decide +kernel)) ((pyIntStr_iff ..).1 (by decide +kernel))
    ((pyIntStr_iff ..).1 (by decide +kernel)) ((pyIntStr_iff ..).1 (by decide +kernel))

example : Conn.new (some 0) (some 1) (.str "Cu0") (.int 1) "red" = .error .valueError :=
  C75_refused _ _ _ _ (by decide) (fun z h => by
    have := (pyIntStr_iff _ z).2 h
    rw [show pyIntStr "Cu0" = .error .valueError by decide +kernel] at this
    cases this)

/-- Fractions are cut off towards zero. -/
example : Whole (.num (.flt (-5/2))) (-2) ∧ Whole (.num (.flt (5/2))) 2 ∧ ¬ Whole (.num (.flt (-5/2))) (-3) := by
  refine ⟨(pyInt_iff _ _).1 (by decide +kernel), (pyInt_iff _ _).1 (by decide +kernel), fun h => ?_⟩
  have := (pyInt_iff _ _).2 h
  exact absurd this (by decide +kernel)

/-- Data with a copper wire. -/
example : ∀ w', load 0 (.dict [("entities", .list [.dict (Sample.ent "dec" 1 1 ++
    [("connections", .dict [("Cu0", .dict [("red", .list [.dict [("entity_id", .int 1)]])])])])])])
    (World.init Sample.env) ≠ (.ok (), w') :=
  C75_import .init (.bare _ rfl) (.inl rfl) (List.mem_singleton.2 rfl) rfl
    ⟨_, _, _, rfl, List.mem_singleton.2 rfl, List.mem_singleton.2 rfl, List.mem_singleton.2 rfl⟩
    (.inl fun z h => by
      have := (pyIntStr_iff _ z).2 h
      rw [show pyIntStr "Cu0" = .error .valueError by decide +kernel] at this
      cases this)

/-- An inserter. -/
def Sample.insMade : World := (layerMake 0 (Sample.ent "ins" 4 4) Sample.belts).2

example : ((Op.setAttr 3 "override_stack_size" (.str " 12 ")).run Sample.insMade).1 = .ok () :=
  (C75_accepts (m := .Inserter) (k := "override_stack_size") _ (by decide +kernel) (by decide) (by decide)).2
    (.inr ⟨12, (pyIntStr_iff ..).1 (by decide +kernel)⟩)

example : List.lookup "override_stack_size"
    (((Op.setAttr 3 "override_stack_size" (.str " 12 ")).run Sample.insMade).2.heap 3).attrs = some (.int 12) :=
  C75_kept (v := .str " 12 ") (by decide) ((pyIntStr_iff " 12 " 12).1 (by decide +kernel)) (Sample.run_eq (by decide +kernel))

end Verif
