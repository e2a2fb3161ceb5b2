import Verif.Proofs.MoreTables
import Verif.Props.Settable
import Verif.Props.Exportable
import Verif.Props.Assign
/-!
# C91: More prototype data never turn accepted data into refused ones
-/
set_option autoImplicit false

namespace Verif
open Spec

/-- C91 for entities: what can be made can be made with more prototype data, in any blueprint with the same custom
behaviours. -/
theorem C91_make {w w' : World} {b b' : BpId} (h : Extends w.env w'.env)
    (hp : ∀ ty, customFor (w'.bp b') ty = customFor (w.bp b) ty) (hc : PlainCustom w.env (w.bp b))
    (hc' : PlainCustom w'.env (w'.bp b')) {kw : Dict} (hr : ∃ r, (layerMake b kw w).1 = .ok r) :
    ∃ r, (layerMake b' kw w').1 = .ok r := by
  have hs := strictIn_iff (d := kw).2 rfl
  obtain ⟨name, k, h1, h2, h3⟩ := (C88_make hs hc).1 hr
  exact (C88_make hs hc').2 ⟨name, k, h1, classOf_mono h hp h2, settable_mono h h3⟩

/-- C91 for imports into blueprints without entities. -/
theorem C91_import {env env' : Env} {w w' : World} (hw : Reachable env w) (hw' : Reachable env' w') {b b' : BpId}
    (hb : (w.bp b).objs = []) (hb' : (w'.bp b').objs = []) (h : Extends w.env w'.env)
    (hp : ∀ ty, customFor (w'.bp b') ty = customFor (w.bp b) ty) (hc : PlainCustom w.env (w.bp b))
    (hc' : PlainCustom w'.env (w'.bp b')) {data : Val} (hr : (load b data w).1 = .ok ()) : (load b' data w').1 = .ok () := by
  refine (C88_import hw' hb' hc' data).2 (acceptable_mono h ?_ ((C88_import hw hb hc data).1 hr))
  rintro kw ⟨s, name, k, h1, h2, h3, h4⟩
  exact ⟨s, name, k, h1, h2, classOf_mono h hp h3, settable_mono h h4⟩

/-- C91: appending to a table extends the prototype data, unless an entity gets another type. -/
theorem C91_append (t : Table) {data : Dict} (hd : (data.map (·.1)).Nodup) (w : World)
    (ht : t = .entity → KeepsTypes w.env data) : Extends w.env (setProtos t data true w).2.env := by
  cases t with
  | entity =>
    refine ⟨fun n ty hn => ?_, fun _ h => h, fun _ h => h, rfl⟩
    have hk := ht rfl
    show ∃ d, List.lookup n (setAll w.env.entities data) = _ ∧ _
    rw [lookup_setAll hd]
    cases hl : List.lookup n data with
    | none => exact hn
    | some v =>
      obtain ⟨d, rfl, hty⟩ := hk n v ty hl hn
      exact ⟨d, rfl, hty⟩
  | recipe => exact ⟨fun _ _ h => h, fun s h => lookup_append_ne hd h, fun _ h => h, rfl⟩
  | item => exact ⟨fun _ _ h => h, fun _ h => h, fun _ h => h, rfl⟩
  | signal => exact ⟨fun _ _ h => h, fun _ h => h, fun s h => lookup_append_ne hd h, rfl⟩
  | tile => exact ⟨fun _ _ h => h, fun _ h => h, fun _ h => h, rfl⟩

/-- C91 for exports: what was imported and could be exported again still can with more prototype data, if the signals keep
having a type. -/
theorem C91_export {env env' : Env} {w w' w1 w1' : World} (hw : Reachable env w) (hw' : Reachable env' w') {b b' : BpId}
    (hb : (w.bp b).objs = []) (hb' : (w'.bp b').objs = []) (h : Extends w.env w'.env) (ht : StayTyped w.env w'.env)
    (hp : ∀ ty, customFor (w'.bp b') ty = customFor (w.bp b) ty) {data : Val} {d : Dict} {icons l : List Val}
    (hd : Content data d) (hi : ListAt d "icons" icons) (hl : ListAt d "entities" l)
    (hld : load b data w = (.ok (), w1)) (hld' : load b' data w' = (.ok (), w1'))
    (hc : ∀ i < l.length, OwnControls w.env (w1.heap (w.next + i)))
    (hc' : ∀ i < l.length, OwnControls w'.env (w1'.heap (w'.next + i)))
    (hx : ∃ v, (toJson b w1).1 = .ok v) : ∃ v, (toJson b' w1').1 = .ok v := by
  obtain ⟨h1, h2⟩ := (C87_import hw hb hd hi hl hld hc).1 hx
  refine (C87_import hw' hb' hd hi hl hld' hc').2 ⟨fun p s hs => namedOut_mono ht (h1 p s hs), fun i kw hk => ?_⟩
  have hs := strictIn_iff (d := kw).2 rfl
  obtain ⟨name, n1, n2⟩ := load_class hw.owned hd hl hld hk hs
  obtain ⟨name', n1', n2'⟩ := load_class hw'.owned hd hl hld' hk hs
  cases n1.symm.trans n1'
  rw [classOf_unique (classOf_mono h hp n2) n2']
  exact exportable_mono ht h.static (h2 i kw hk)

/-- C91 for assignments: a setting that an entity takes is taken by the same entity made with more prototype data. -/
theorem C91_assign {w w' w₀ w₀' : World} {b b' : BpId} {r r' : Ref} (h : Extends w.env w'.env)
    (hp : ∀ ty, customFor (w'.bp b') ty = customFor (w.bp b) ty) (hc : PlainCustom w.env (w.bp b))
    (hc' : PlainCustom w'.env (w'.bp b')) {kw : Dict} (h1 : layerMake b kw w = (.ok r, w₀))
    (h2 : layerMake b' kw w' = (.ok r', w₀')) (hs : (w₀.heap r).strict = true) (hs' : (w₀'.heap r').strict = true)
    (hn : NoCustom w.env (w.bp b) (w₀.heap r).name) (hn' : NoCustom w'.env (w'.bp b') (w₀'.heap r').name) {m : Mx} {k : String}
    (hm : m ∈ (w₀.heap r).klass.chain) (hk : k ∈ settings m) {v : Val} (hv : ((Op.setAttr r k v).run w₀).1 = .ok ()) :
    ((Op.setAttr r' k v).run w₀').1 = .ok () := by
  have hm' : m ∈ (w₀'.heap r').klass.chain := by
    have hst := strictIn_iff (d := kw).2 rfl
    obtain ⟨e, n, he, hh⟩ := layerMake_new h1
    obtain ⟨e', n', he', hh'⟩ := layerMake_new h2
    obtain ⟨name, a1, a2⟩ := new_class hst he
    obtain ⟨name', b1, b2⟩ := new_class hst he'
    cases a1.symm.trans b1
    have := classOf_unique (classOf_mono h hp a2) b2
    rw [hh']
    rw [hh] at hm
    show m ∈ e'.klass.chain
    rw [this]
    exact hm
  rcases C52_like_make v h1 hs hn hm hk with ⟨w₁, -, e2⟩ | ⟨x, w₁, e1, -⟩
  · obtain ⟨s, hmk⟩ := C91_make h hp hc hc' ⟨r, congrArg Prod.fst e2⟩
    rcases C52_like_make v h2 hs' hn' hm' hk with ⟨u, e1, -⟩ | ⟨x, u, -, e2'⟩
    · rw [e1]
    · rw [e2'] at hmk
      cases hmk
  · rw [e1] at hv
    cases hv

/-- Extending is transitive: the same holds for any number of appended tables. -/
theorem C91_trans {a b c : Env} (h : Extends a b) (h' : Extends b c) : Extends a c :=
  ⟨fun n ty hn => h'.type n ty (h.type n ty hn), fun s hs => h'.recipe s (h.recipe s hs),
    fun s hs => h'.signal s (h.signal s hs), h'.static.trans h.static⟩

/-- The restriction is needed: an assembling machine that becomes a belt no longer takes a recipe. -/
theorem C91_types_needed : ∃ (w : World) (data kw : Dict), Reachable Sample.env w ∧ (data.map (·.1)).Nodup ∧
    (∃ r, (layerMake 0 kw w).1 = .ok r) ∧ ¬ ∃ r, (layerMake 0 kw (setProtos .entity data true w).2).1 = .ok r := by
  refine ⟨World.init Sample.env, [("asm", Sample.proto "transport-belt" (Sample.box 0 0 1 1))],
    Sample.ent "asm" 1 2 ++ [("recipe", .str "gear")], .init, by decide, ⟨0, by decide +kernel⟩, ?_⟩
  rintro ⟨r, hr⟩
  have e : (layerMake 0 (Sample.ent "asm" 1 2 ++ [("recipe", .str "gear")])
      (setProtos .entity [("asm", Sample.proto "transport-belt" (Sample.box 0 0 1 1))] true (World.init Sample.env)).2).1 =
      .error .typeError := by decide +kernel
  rw [e] at hr
  cases hr

/-- A further recipe: the machine of the sample is still made. -/
example : Extends (World.init Sample.env).env (setProtos .recipe [("pipe", .dict [])] true (World.init Sample.env)).2.env ∧
    (∃ r, (layerMake 0 (Sample.ent "asm" 1 2 ++ [("recipe", .str "gear")]) (World.init Sample.env)).1 = .ok r) :=
  ⟨C91_append .recipe (by decide) _ (fun h => by cases h), 0, by decide +kernel⟩

/-- The sample blueprint can be imported, and therefore also with a further recipe. -/
example : (load 0 Sample.data (setProtos .recipe [("pipe", .dict [])] true (World.init Sample.env)).2).1 = .ok () :=
  C91_import (w := World.init Sample.env) (b := 0) (env := Sample.env) .init
    (.step (.setProtos .recipe [("pipe", .dict [])] true) .init trivial) rfl rfl (C91_append .recipe (by decide) _ (fun h => by cases h)) (fun _ => rfl) (fun _ _ _ => .inl rfl)
    (fun _ _ _ => .inl rfl) (by decide +kernel)

/-- The accumulator of the examples can be exported, and therefore also with a further recipe. -/
example : ∃ v, (toJson 0 (load 0 (Sample.outData (Sample.sig "iron" "item"))
    (setProtos .recipe [("pipe", .dict [])] true (World.init Sample.env)).2).2).1 = .ok v := by
  have hr : Reachable Sample.env (setProtos .recipe [("pipe", .dict [])] true (World.init Sample.env)).2 :=
    .step (.setProtos .recipe [("pipe", .dict [])] true) .init trivial
  have h1 := Sample.run_eq (x := load 0 (Sample.outData (Sample.sig "iron" "item"))) (w := World.init Sample.env)
    (a := .ok ()) (by decide +kernel)
  have h2 := Sample.run_eq (x := load 0 (Sample.outData (Sample.sig "iron" "item")))
    (w := (setProtos .recipe [("pipe", .dict [])] true (World.init Sample.env)).2) (a := .ok ()) (by decide +kernel)
  refine C91_export (w := World.init Sample.env) .init hr rfl rfl (C91_append .recipe (by decide) _ (fun h => by cases h))
    (fun n t h => ⟨t, h⟩) (fun _ => rfl) (.bare _ rfl) (.inl rfl) (.inl rfl) h1 h2
    (fun i hi => C87_own_controls .init (.bare _ rfl) (.inl rfl) h1 hi fun _ _ => rfl)
    (fun i hi => C87_own_controls hr (.bare _ rfl) (.inl rfl) h2 hi fun _ _ => rfl) ?_
  have : (toJson 0 (load 0 (Sample.outData (Sample.sig "iron" "item")) (World.init Sample.env)).2).1.toBool = true := by
    decide +kernel
  revert this
  cases (toJson 0 (load 0 (Sample.outData (Sample.sig "iron" "item")) (World.init Sample.env)).2).1 with
  | ok v => exact fun _ => ⟨v, rfl⟩
  | error e => intro h; cases h

/-- The machine of the sample takes another recipe, and therefore also with a further one in the table. -/
example : ((Op.setAttr 0 "recipe" (.str "gear")).run (layerMake 0 (Sample.ent "asm" 1 2)
    (setProtos .recipe [("pipe", .dict [])] true (World.init Sample.env)).2).2).1 = .ok () :=
  C91_assign (w := World.init Sample.env) (b := 0) (b' := 0) (m := .Recipe)
    (C91_append .recipe (by decide) _ (fun h => by cases h)) (fun _ => rfl) (fun _ _ _ => .inl rfl) (fun _ _ _ => .inl rfl)
    (Sample.run_eq (x := layerMake 0 (Sample.ent "asm" 1 2)) (w := World.init Sample.env) (a := .ok 0) (by decide +kernel))
    (Sample.run_eq (x := layerMake 0 (Sample.ent "asm" 1 2)) (a := .ok 0) (by decide +kernel))
    (by decide +kernel) (by decide +kernel) (fun _ _ => rfl) (fun _ _ => rfl) (by decide +kernel) (by decide +kernel)
    (by decide +kernel)

end Verif
