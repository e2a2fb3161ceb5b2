import Verif.Proofs.Exportable
import Verif.Proofs.Moved
import Verif.Props.Load
import Verif.Props.Shown
/-!
# Imported data can be exported exactly if their signals can (C87)
-/
set_option autoImplicit false

namespace Verif
open Spec

/-- C87 for a single entity: as long as it is not changed, it can be exported exactly if the data it was made from can.
Its wires must lead to numbered entities. -/
theorem C87_entity {b c : BpId} {kw : Dict} {w w1 w2 : World} {r : Ref} (hm : layerMake b kw w = (.ok r, w1))
    (hc : OwnControls w.env (w1.heap r)) (henv : w2.env = w.env) (hsame : SameButNumber (w2.heap r) (w1.heap r))
    (hl : (w2.heap r).layer = some c)
    (hj : ∀ x ∈ (w2.bp c).conns, ∀ e, e = x.fromE ∨ e = x.toE → ∃ s n, e = some s ∧ (w2.heap s).auto = some n) :
    (∃ d, (entToJson r w2).1 = .ok (.dict d)) ↔ Exportable w.env (w1.heap r).klass kw := by
  obtain ⟨e, n, hn, hh⟩ := layerMake_new hm
  obtain ⟨-, -, -, -, -, h6, -, h8, h9⟩ := SameButNumber.eqs hsame
  rw [hh] at hc h6 h8 h9 ⊢
  have key := fun obj => new_emits (e := e) (e' := w2.heap r) (obj := obj) hn hc h6 h8 h9
  rw [← henv] at key ⊢
  constructor
  · rintro ⟨d, hd⟩
    obtain ⟨o, d', -, -, hem⟩ := entToJson_parts (Prod.ext hd rfl)
    exact (key _).1 ⟨d', hem⟩
  · intro h
    obtain ⟨d, hd⟩ := (key (baseObj (w2.heap r) none)).2 h
    obtain ⟨v, w3, hv⟩ := entToJson_total (SameUpToFlips.refl w2) hl
      (fun x hx => by
        obtain ⟨s, _, hs, -⟩ := hj x hx _ (.inl rfl)
        obtain ⟨t, _, ht, -⟩ := hj x hx _ (.inr rfl)
        exact ⟨by rw [hs]; simp, by rw [ht]; simp⟩)
      (fun x hx s hs => by
        rcases hs with hs | hs
        · obtain ⟨t, n, ht, hn⟩ := hj x hx _ (.inl rfl)
          rw [hs] at ht; cases ht; exact ⟨n, hn⟩
        · obtain ⟨t, n, ht, hn⟩ := hj x hx _ (.inr rfl)
          rw [hs] at ht; cases ht; exact ⟨n, hn⟩)
      (settings_of_base hd)
    obtain ⟨o, d', hd', -⟩ := entToJson_parts hv
    exact ⟨d', by rw [hv, hd']⟩

/-- C87: data that were imported into an empty blueprint can be exported exactly if the last icon for each slot and the
signals of every entity can. -/
theorem C87_import {env : Env} {w w1 : World} (h : Reachable env w) {b : BpId} (hb : (w.bp b).objs = []) {data : Val}
    {d : Dict} {icons l : List Val} (hd : Content data d) (hi : ListAt d "icons" icons) (hl : ListAt d "entities" l)
    (hw : load b data w = (.ok (), w1)) (hc : ∀ i < l.length, OwnControls w.env (w1.heap (w.next + i))) :
    (∃ v, (toJson b w1).1 = .ok v) ↔ (∀ p s, LastFill icons p s → NamedOut w.env s) ∧
      ∀ i kw, l[i]? = some (.dict kw) → Exportable w.env (w1.heap (w.next + i)).klass kw := by
  have how : Owned w1 := by
    have := (Reachable.step (.load b data) h trivial).owned
    have e : ((Op.load b data).run w).2 = w1 := by
      show (load b data w).2 = w1
      rw [hw]
    rw [e] at this
    exact this
  obtain ⟨-, hord⟩ := C13_load h hd hl hw
  obtain ⟨-, hwires, -⟩ := C29_wires h hw
  have henv : w1.env = w.env := by
    obtain ⟨d', col, iv, ic, ev, es, cs, sv, scheds, h1, h2, h3, h4, h5, h6, h7, h8, h9, h10, h11, rfl⟩ :=
      (load_ok h.owned).1 hw
    exact base_env ..
  have hicons : (∃ out, iconsJson w1.env 0 (w1.bp b).icons = .ok out) ↔ ∀ p s, LastFill icons p s → NamedOut w.env s := by
    obtain ⟨d', col, iv, ic, ev, es, cs, sv, scheds, h1, h2, h3, h4, h5, h6, h7, h8, h9, h10, h11, rfl⟩ :=
      (load_ok h.owned).1 hw
    cases Content.unique (content_iff.1 h1) hd
    rw [listAt_iter hi] at h3
    cases h3
    obtain ⟨objs, hbp⟩ := base_bp w b d col ic es
    have e : ∀ cs' ts ss, (((w.base b d col ic es).setBp b { (w.base b d col ic es).bp b with
        conns := cs', tiles := ts, schedules := ss }).bp b).icons = ic := by
      intro cs' ts ss
      rw [setBp_bp_self, hbp]
      rfl
    rw [e, henv]
    exact icons_out h4
  have hents : ∀ i kw, l[i]? = some (.dict kw) → ((∃ s, (w1.heap (w.next + i)).settings w1.env = .ok s) ↔
      Exportable w.env (w1.heap (w.next + i)).klass kw) := by
    intro i kw hkw
    obtain ⟨hi', hx⟩ := List.getElem?_eq_some_iff.1 hkw
    have hc := hc i hi'
    rw [henv]
    obtain ⟨d', col, iv, ic, ev, es, cs, sv, scheds, h1, h2, h3, h4, h5, h6, h7, h8, h9, h10, h11, rfl⟩ :=
      (load_ok h.owned).1 hw
    cases Content.unique (content_iff.1 h1) hd
    rw [listAt_iter hl] at h5
    cases h5
    obtain ⟨k1, k2⟩ := buildAll_get h6
    obtain ⟨kw', hkw', hnew⟩ := k2 i hi' (by omega)
    rw [hx] at hkw'
    cases hkw'
    have hsame := base_heap_new w b d col ic es (i := i) (by omega)
    obtain ⟨-, -, -, p4, p5, p6, p7, p8, p9⟩ := SameButNumber.eqs hsame
    have pst : ((w.base b d col ic es).heap (w.next + i)).strict = es[i].strict := by
      unfold SameButNumber at hsame
      exact (Entity.mk.injEq .. ▸ hsame).1
    have hc : OwnControls w.env ((w.base b d col ic es).heap (w.next + i)) := hc
    have hc' : OwnControls w.env es[i] := fun hs t ht => by
      have := hc (pst.trans hs) t (p7 ▸ ht)
      rwa [p6] at this
    show (∃ s, ((w.base b d col ic es).heap (w.next + i)).settings w.env = .ok s) ↔
      Exportable w.env ((w.base b d col ic es).heap (w.next + i)).klass kw
    rw [p6, ← new_emits (obj := baseObj ((w.base b d col ic es).heap (w.next + i)) none) hnew hc' p6 p8 p9]
    exact ⟨fun ⟨s, hs⟩ => (base_of_settings hs none).imp fun _ h => h.1, fun ⟨s, hs⟩ => ⟨_, settings_of_base hs⟩⟩
  have hmem : ∀ r, r ∈ (w1.bp b).objs ↔ ∃ i, i < l.length ∧ r = w.next + i := by
    intro r
    rw [hord.same.mem_iff, hb, List.nil_append, List.mem_range']
    simp
  have hdict : ∀ i, i < l.length → ∃ kw, l[i]? = some (.dict kw) := fun i hi =>
    (load_entry h hd hl hw hi).imp fun _ h => h.1
  constructor
  · rintro ⟨v, hv⟩
    obtain ⟨ents, out, ho, -, -, hall⟩ := export_parts how (Prod.ext hv rfl)
    refine ⟨hicons.1 ⟨out, ho⟩, fun i kw hkw => (hents i kw hkw).1 ?_⟩
    obtain ⟨hi', -⟩ := List.getElem?_eq_some_iff.1 hkw
    obtain ⟨j, hj, hr⟩ := List.getElem_of_mem ((hmem _).2 ⟨i, hi', rfl⟩)
    obtain ⟨x, o, -, -, hem, -⟩ := hall j hj
    rw [hr] at hem
    exact ⟨_, settings_of_base hem⟩
  · rintro ⟨h1, h2⟩
    have hends : ∀ c ∈ (w1.bp b).conns, ∃ a ∈ (w1.bp b).objs, ∃ s ∈ (w1.bp b).objs,
        (c.fromE = some a ∧ c.toE = some s) ∨ (c.fromE = some s ∧ c.toE = some a) := by
      intro c hc
      obtain ⟨a, ha, sa, s, sb, color, ⟨_, _, _, -, -, hf, -⟩, hj⟩ := hwires c hc
      refine ⟨a, ha, s, (by obtain ⟨x, y, he, -⟩ := hf; rw [he]; simp), ?_⟩
      rcases hj.2 with ⟨j1, -, j2, -⟩ | ⟨j1, -, j2, -⟩
      · exact .inl ⟨j1, j2⟩
      · exact .inr ⟨j1, j2⟩
    obtain ⟨v, w2, hv⟩ := toJson_total how
      (fun c hc => by
        obtain ⟨a, -, s, -, ⟨j1, j2⟩ | ⟨j1, j2⟩⟩ := hends c hc <;> exact ⟨by rw [j1]; simp, by rw [j2]; simp⟩)
      (fun c hc t ht => by
        have ht : t ∈ (w1.bp b).objs := by
          obtain ⟨a, ha, s, hs, ⟨j1, j2⟩ | ⟨j1, j2⟩⟩ := hends c hc <;> rw [j1, j2] at ht <;> rcases ht with ht | ht <;> cases ht <;>
            assumption
        obtain ⟨i, hi, rfl⟩ := List.getElem_of_mem ht
        exact ⟨_, hord.numbered i hi⟩)
      (fun r hr => by
        obtain ⟨i, hi, rfl⟩ := (hmem r).1 hr
        obtain ⟨kw, hkw⟩ := hdict i hi
        exact (hents i kw hkw).2 (h2 i kw hkw))
      (hicons.2 h1)
    exact ⟨v, by rw [hv]⟩

/-- Where the blueprint has no custom behaviours for its type, an imported entity has the control behaviours of the table. -/
theorem C87_own_controls {env : Env} {w w1 : World} (h : Reachable env w) {b : BpId} {data : Val}
    {d : Dict} {l : List Val} (hd : Content data d) (hl : ListAt d "entities" l)
    (hw : load b data w = (.ok (), w1)) {i : Nat} (hi : i < l.length)
    (hc : NoCustom w.env (w.bp b) (w1.heap (w.next + i)).name) : OwnControls w.env (w1.heap (w.next + i)) := by
  obtain ⟨d', col, iv, ic, ev, es, cs, sv, scheds, h1, h2, h3, h4, h5, h6, h7, h8, h9, h10, h11, rfl⟩ :=
    (load_ok h.owned).1 hw
  cases Content.unique (content_iff.1 h1) hd
  rw [listAt_iter hl] at h5
  cases h5
  obtain ⟨k1, k2⟩ := buildAll_get h6
  obtain ⟨kw, hkw, hnew⟩ := k2 i hi (by omega)
  have hsame := base_heap_new w b d col ic es (i := i) (by omega)
  obtain ⟨-, -, -, p4, p5, p6, p7, p8, p9⟩ := SameButNumber.eqs hsame
  have pst : ((w.base b d col ic es).heap (w.next + i)).strict = es[i].strict := by
    unfold SameButNumber at hsame
    exact (Entity.mk.injEq .. ▸ hsame).1
  show OwnControls w.env ((w.base b d col ic es).heap (w.next + i))
  have hc : NoCustom w.env (w.bp b) ((w.base b d col ic es).heap (w.next + i)).name := hc
  rw [p7] at hc
  intro hs t ht
  rw [p6]
  exact new_ownControls hnew hc (pst.symm.trans hs) t (p7 ▸ ht)

/-- Not everything that can be imported can be exported again: an accumulator with an empty name as its output signal, and
an icon with the number 5 as its signal. -/
theorem C87_false : ∃ data data', (load 0 data (World.init Sample.env)).1 = .ok () ∧
    (toJson 0 (load 0 data (World.init Sample.env)).2).1 = .error .keyError ∧
    (load 0 data' (World.init Sample.env)).1 = .ok () ∧
    (toJson 0 (load 0 data' (World.init Sample.env)).2).1 = .error .attributeError :=
  ⟨.dict [("entities", .list [.dict [("name", .str "acc"), ("position", Sample.pos 1 2),
      ("control_behavior", .dict [("output_signal", .str "")])]])],
    .dict [("icons", .list [.dict [("signal", .int 5), ("index", .int 1)]])], by decide +kernel⟩

namespace Sample

def outData (s : Val) : Val :=
  .dict [("icons", .list [.dict [("signal", sig "A" "virtual"), ("index", .int 1)]]),
    ("entities", .list [.dict [("name", .str "acc"), ("position", pos 1 2), ("control_behavior", .dict [("output_signal", s)])]])]

def outWorld (s : Val) : World := (load 0 (outData s) (World.init env)).2

theorem outWorld_named : load 0 (outData (sig "A" "virtual")) (World.init env) = (.ok (), outWorld (sig "A" "virtual")) :=
  run_eq (by decide +kernel)
theorem outWorld_empty : load 0 (outData (.str "")) (World.init env) = (.ok (), outWorld (.str "")) :=
  run_eq (by decide +kernel)

theorem out_iff (s : Val) (h : load 0 (outData s) (World.init env) = (.ok (), outWorld s)) :
    (∃ v, (toJson 0 (outWorld s)).1 = .ok v) ↔
    (∀ p t, LastFill [.dict [("signal", sig "A" "virtual"), ("index", .int 1)]] p t → NamedOut (World.init env).env t) ∧
    ∀ i kw, [Val.dict [("name", .str "acc"), ("position", pos 1 2), ("control_behavior", .dict [("output_signal", s)])]][i]? =
      some (.dict kw) → Exportable (World.init env).env ((outWorld s).heap ((World.init env).next + i)).klass kw :=
  C87_import .init rfl (.bare _ rfl) (.inl rfl) (.inl rfl) h
    (fun i hi => C87_own_controls .init (.bare _ rfl) (.inl rfl) h hi (fun _ _ => rfl))

end Sample

/-- The signal of the table makes the data exportable, the empty name does not. -/
example : Exportable Sample.env ((Sample.outWorld (Sample.sig "A" "virtual")).heap 0).klass
    [("name", .str "acc"), ("position", Sample.pos 1 2), ("control_behavior", .dict [("output_signal", Sample.sig "A" "virtual")])] :=
  ((Sample.out_iff _ Sample.outWorld_named).1 (by
    have : (toJson 0 (Sample.outWorld (Sample.sig "A" "virtual"))).1.toBool = true := by decide +kernel
    revert this
    cases (toJson 0 (Sample.outWorld (Sample.sig "A" "virtual"))).1 with
    | ok v => exact fun _ => ⟨v, rfl⟩
    | error e => intro h; cases h)).2 0 _ rfl

example : ¬ ∃ v, (toJson 0 (Sample.outWorld (.str ""))).1 = .ok v := by
  intro h
  have := (((Sample.out_iff _ Sample.outWorld_empty).1 h).2 0 _ rfl).control _ rfl
  obtain ⟨u, hu, h⟩ := this.signal .Accumulator "output_signal" (by decide +kernel) (by decide) (by decide) (by decide)
  have : valueAt [("output_signal", .str "")] "output_signal" = .str "" := rfl
  rw [this] at hu
  cases hu
  rcases h with h | ⟨z, h⟩ | ⟨n, t, h, ⟨d, hd, -⟩⟩
  · cases h
  · cases h
  · cases h
    have : List.lookup "" Sample.env.signals = none := by decide +kernel
    cases this.symm.trans hd

end Verif
