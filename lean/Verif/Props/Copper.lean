import Verif.Props.Load
import Verif.Props.Settings
/-!
# Copper wires (C64)

The game writes the copper wires of a power switch into its `connections`, under `Cu0` and `Cu1`, as lists of references
without a colour in between, and the copper wires of a pole into its setting `neighbours`.
-/
set_option autoImplicit false

namespace Verif
open Spec

/-- If an import succeeds, every entity of the data has connections of the form of circuit wires: an object of objects
of lists. (A text or an object in the place of a list is read as well.) -/
theorem C64_shape {env : Env} {w w' : World} (h : Reachable env w) {b : BpId} {data : Val} {d : Dict} {l : List Val}
    (hd : Content data d) (hl : ListAt d "entities" l) (hw : load b data w = (.ok (), w')) {kw : Dict}
    (hkw : Val.dict kw ∈ l) {raw : Val} (hraw : List.lookup "connections" kw = some raw) :
    raw = .none ∨ ∃ sides, raw = .dict sides ∧ ∀ side p, (side, p) ∈ sides → ∃ colors, p = .dict colors ∧
      ∀ color q, (color, q) ∈ colors → ∃ refs, Val.iter q = .ok refs := by
  obtain ⟨d', col, iv, ic, ev, es, cs, sv, scheds, h1, h2, h3, h4, h5, h6, h7, h8, h9, h10, h11, rfl⟩ :=
    (load_ok h.owned).1 hw
  cases Content.unique (content_iff.1 h1) hd
  rw [listAt_iter hl] at h5
  cases h5
  obtain ⟨hlen, hget⟩ := buildAll_get h6
  obtain ⟨i, hi, hli⟩ := List.getElem_of_mem hkw
  have hi' : i < es.length := by rw [hlen]; exact hi
  obtain ⟨kw', hk, hne⟩ := hget i hi hi'
  rw [hli] at hk
  cases hk
  have hraw' : ((w.base b d col ic es).heap (w.next + i)).raw = raw := by
    rw [(SameButNumber.eqs (base_heap_new w b d col ic es hi')).2.2.1, Entity.new_raw hne]
    unfold Dict.getD Dict.get?
    rw [hraw]
    rfl
  have hmem := (base_mem w b d col ic es h.owned).2 (.inr ⟨i, hi', rfl⟩)
  unfold World.rawWires at h7
  simp only [bind_eq_ok, pure_eq_ok, Except.ok.injEq] at h7
  obtain ⟨css, hcss, -⟩ := h7
  obtain ⟨x, hx⟩ := mapM_total hcss _ hmem
  rw [hraw'] at hx
  have key : ∀ raw : Val, raw ≠ .none → rawRefs (w.base b d col ic es) b (w.next + i) raw = .ok x →
      ∃ sides, raw = .dict sides ∧ ∀ side p, (side, p) ∈ sides → ∃ colors, p = .dict colors ∧
        ∀ color q, (color, q) ∈ colors → ∃ refs, Val.iter q = .ok refs := by
    intro raw hn hx
    unfold rawRefs at hx
    have hx' : (do
        let sides ← raw.asDict
        let l ← sides.mapM (fun p => do
          let colors ← Val.asDict p.2
          let l ← colors.mapM (fun q => do
            let cs ← Val.iter q.2
            cs.mapM (refConn (w.base b d col ic es) b (w.next + i) p.1 q.1))
          return l.flatten)
        return l.flatten : Except Exc (List Conn)) = .ok x := by
      cases raw <;> first | exact hx | exact absurd rfl hn
    rw [bind_eq_ok] at hx'
    obtain ⟨sides, hs, hx'⟩ := hx'
    rw [bind_eq_ok] at hx'
    obtain ⟨m, hm, -⟩ := hx'
    have hraw : raw = .dict sides := by
      cases raw <;> first | (cases hs; rfl) | cases hs
    refine ⟨sides, hraw, fun side p hp => ?_⟩
    obtain ⟨y, hy⟩ := mapM_total hm _ hp
    rw [bind_eq_ok] at hy
    obtain ⟨colors, hc, hy⟩ := hy
    rw [bind_eq_ok] at hy
    obtain ⟨m', hm', -⟩ := hy
    refine ⟨colors, ?_, fun color q hq => ?_⟩
    · cases p <;> first | (cases hc; rfl) | cases hc
    · obtain ⟨z, hz⟩ := mapM_total hm' _ hq
      rw [bind_eq_ok] at hz
      obtain ⟨refs, hr, -⟩ := hz
      exact ⟨refs, hr⟩
  by_cases hn : raw = .none
  · exact .inl hn
  · exact .inr (key raw hn hx)

/-- Data with a copper wire of a power switch cannot be imported. -/
theorem C64_switch {env : Env} {w : World} (h : Reachable env w) {b : BpId} {data : Val} {d : Dict} {l : List Val}
    (hd : Content data d) (hl : ListAt d "entities" l) {kw sides : Dict} (hkw : Val.dict kw ∈ l)
    (hraw : List.lookup "connections" kw = some (.dict sides)) {point : String} {refs : List Val}
    (hc : (point, Val.list refs) ∈ sides) (w' : World) : load b data w ≠ (.ok (), w') := by
  intro hw
  rcases C64_shape h hd hl hw hkw hraw with e | ⟨s, e, hs⟩
  · cases e
  · cases e
    obtain ⟨colors, e, -⟩ := hs _ _ hc
    cases e

/-- Data with a copper wire of a pole cannot be imported: no behaviour has the setting `neighbours`. -/
theorem C64_pole {env : Env} {w : World} (h : Reachable env w) {b : BpId} {data : Val} {d : Dict} {l : List Val}
    (hd : Content data d) (hl : ListAt d "entities" l) {kw : Dict} (hkw : Val.dict kw ∈ l)
    (hk : List.lookup "neighbours" kw ≠ none) (w' : World) : load b data w ≠ (.ok (), w') := by
  intro hw
  obtain ⟨d', col, iv, ic, ev, es, cs, sv, scheds, h1, h2, h3, h4, h5, h6, h7, h8, h9, h10, h11, rfl⟩ :=
    (load_ok h.owned).1 hw
  cases Content.unique (content_iff.1 h1) hd
  rw [listAt_iter hl] at h5
  cases h5
  obtain ⟨hlen, hget⟩ := buildAll_get h6
  obtain ⟨i, hi, hli⟩ := List.getElem_of_mem hkw
  have hi' : i < es.length := by rw [hlen]; exact hi
  obtain ⟨kw', hk', hne⟩ := hget i hi hi'
  rw [hli] at hk'
  cases hk'
  obtain ⟨v, hv⟩ := Option.ne_none_iff_exists'.1 hk
  obtain ⟨m, hm, hkm⟩ := initChain_keys (Entity.new_chain hne) (k := "neighbours") (v := v) (by
    unfold Dict.get?
    rw [lookup_eraseKeys, if_neg (by decide)]
    exact hv)
  revert hkm
  cases m <;> decide

/-- … nor can such an entity be made. -/
theorem C64_pole_make {b : BpId} {kw : Dict} {w w' : World} {r : Ref} (hk : List.lookup "neighbours" kw ≠ none) :
    layerMake b kw w ≠ (.ok r, w') := by
  intro h
  rcases C32_entity h hk with h | ⟨m, -, hm⟩
  · revert h; decide
  · revert hm; cases m <;> decide

/-! ### Examples -/

/-- A power switch with a copper wire. -/
example : ∃ (data : Val) (d : Dict) (l : List Val) (kw sides : Dict) (point : String) (refs : List Val),
    Content data d ∧ ListAt d "entities" l ∧ Val.dict kw ∈ l ∧
    List.lookup "connections" kw = some (.dict sides) ∧ (point, Val.list refs) ∈ sides :=
  ⟨.dict [("entities", .list [.dict [("name", .str "switch"), ("position", Sample.pos 1 2), ("entity_number", .int 1),
    ("connections", .dict [("Cu0", .list [.dict [("entity_id", .int 1), ("wire_id", .int 0)]])])]])], _, _, _, _, "Cu0", _,
    .bare _ rfl, .inl rfl, List.mem_singleton.2 rfl, rfl, List.mem_singleton.2 rfl⟩

/-- What the import says about it. -/
example : (load 0 (.dict [("entities", .list [.dict [("name", .str "belt"), ("position", Sample.pos 1 2),
      ("entity_number", .int 1), ("connections", .dict [("Cu0", .list [.dict [("entity_id", .int 1), ("wire_id", .int 0)]])])]])])
    (World.init Sample.env)).1 = .error .attributeError ∧
    (load 0 (.dict [("entities", .list [.dict [("name", .str "belt"), ("position", Sample.pos 1 2),
      ("neighbours", .list [])]])]) (World.init Sample.env)).1 = .error .typeError := by decide +kernel

/-- The sample data, with a circuit wire, meet the hypotheses of `C64_shape`. -/
example : ∃ d l kw raw, Content Sample.data d ∧ ListAt d "entities" l ∧ Val.dict kw ∈ l ∧
    List.lookup "connections" kw = some raw ∧ (load 0 Sample.data (World.init Sample.env)).1 = .ok () :=
  ⟨_, _, _, _, .wrapped _ _ rfl, .inl rfl, List.mem_cons_self .., rfl, by decide +kernel⟩

end Verif
