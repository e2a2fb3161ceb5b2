import Verif.Proofs.Custom
import Verif.Props.Types
/-!
# Property C80: custom behaviours of a blueprint

`Blueprint(custom_entity_prototypes={type: {'mixins': […]}})` adds behaviours to the entities of a type
(`entity.py:89-97`).  The custom ones come first.  `Items.__init__` hands the remaining settings on as positional
arguments (`super().__init__(*args, *kwargs)`, `entity_mixins.py:141`), so the settings of all behaviours after it are
refused.
-/
set_option autoImplicit false

namespace Verif
open Spec

/-- C80: a strict entity has the custom behaviours for its type, those of the table, and what they derive from, each
once, the custom ones first. -/
theorem C80_class {b : BpId} {kw : Dict} {w w' : World} {r : Ref} (h : layerMake b kw w = (.ok r, w'))
    (hs : (w'.heap r).strict = true) :
    ∃ s p t rs, List.lookup "name" kw = some (.str s) ∧ List.lookup s w.env.entities = some (.dict p) ∧
      List.lookup "type" p = some (.str t) ∧ List.lookup t entityPrototypes = some rs ∧
      DerivedFirst (customFor (w.bp b) t ++ rs) ∧ (behaviours w' r).Nodup ∧
      (customFor (w.bp b) t ++ rs).Sublist (behaviours w' r) ∧
      ∀ x, x ∈ behaviours w' r ↔ ∃ m ∈ customFor (w.bp b) t ++ rs, x ∈ lineage m := by
  obtain ⟨e, n, he, hh⟩ := layerMake_new h
  unfold behaviours
  rw [hh] at hs ⊢
  rcases Entity.new_made he with ⟨h0, -⟩ | ⟨-, data, t, rs, hd, hn, ht, hrs, hk⟩
  · rw [show e.strict = true from hs] at h0; cases h0
  · obtain ⟨p, rfl, hp⟩ : ∃ p, data = .dict p ∧ List.lookup "type" p = some (.str t) := by
      cases data with
      | dict p => exact ⟨p, rfl, (lookup_getItem ..).1 ht⟩
      | _ => cases ht
    obtain ⟨h1, h2, -, -⟩ := Klass.made_of hk (Klass.entity_fresh _)
    refine ⟨e.name, p, t, rs, hn, hd, hp, hrs, Klass.extend_orderly hk (Klass.entity_fresh _), h1, h2, fun x => ?_⟩
    rw [show ({ e with auto := n } : Entity).klass = e.klass from rfl, Klass.extend_members hk,
      show Klass.entity.chain = [] from rfl]
    simp only [List.not_mem_nil, false_or]
    rfl

/-- C80: custom behaviours that repeat one of the type, or list one before one that derives from it, make every strict
entity of that type impossible: `make` raises `TypeError` and changes nothing. -/
theorem C80_conflict {b : BpId} {kw p : Dict} {w w' : World} {r : Ref} {s t : String} {rs : List Mx} (c : Custom)
    (h : layerMake b kw w = (.ok r, w')) (hs : (w'.heap r).strict = true)
    (hname : List.lookup "name" kw = some (.str s)) (hp : List.lookup s w.env.entities = some (.dict p))
    (ht : List.lookup "type" p = some (.str t)) (hrs : List.lookup t entityPrototypes = some rs)
    (hc : ¬ DerivedFirst ((List.lookup t c).getD [] ++ rs)) :
    layerMake b kw ((Op.setCustom b c).run w).2 = (.error .typeError, ((Op.setCustom b c).run w).2) := by
  refine layerMake_of_error ?_
  obtain ⟨e, n, he, hh⟩ := layerMake_new h
  rw [hh] at hs
  have hcust : ((Op.setCustom b c).run w).2.customOf (some b) = some c := by
    show some ((w.setBp b _).bp b).custom = _
    rw [setBp_bp_self]
  rw [hcust, show ((Op.setCustom b c).run w).2.env = w.env from rfl]
  obtain ⟨h1, h2, name, position, number, e', hn, hpos, hnum, hset, hf⟩ := Entity.new_ok.1 he
  obtain ⟨pos, dir, cb, a, -, -, -, -, rfl⟩ := Entity.finish_ok.1 hf
  have : name = .str s := by
    have := hname.symm.trans (show List.lookup "name" kw = some name from hn)
    injection this with this
    exact this.symm
  subst this
  obtain ⟨s', hs1, ⟨h0, rfl⟩ | ⟨h0, -⟩⟩ := Entity.setName_ok hset
  · rw [show (_ : Bool) = (Entity.raw0 (some b) kw number).strict from rfl, h0] at hs
    cases hs
  · have hbad : ∃ x, Klass.extend 0 Klass.entity ((List.lookup t c).getD [] ++ rs) = .error x := by
      cases hk : Klass.extend 0 Klass.entity ((List.lookup t c).getD [] ++ rs) with
      | error x => exact ⟨x, rfl⟩
      | ok k => exact absurd (Klass.extend_orderly hk (Klass.entity_fresh _)) hc
    obtain ⟨x, hx⟩ := hbad
    have hxt := Klass.extend_error hx
    subst hxt
    have hset' : Entity.setName w.env (some c) (Entity.raw0 (some b) kw number) (.str s) =
        (.error .typeError, { Entity.raw0 (some b) kw number with name := s }) := by
      refine Entity.setName_conflict (data := .dict p) (t := .str t) h0 hp ((lookup_getItem ..).2 ht)
        (ms := (List.lookup t c).getD [] ++ rs) ?_ hx
      unfold mixinsFor prototypeMixins
      dsimp only
      rw [hrs]
      rfl
    unfold Entity.raw0 at hset'
    unfold Entity.new
    rw [h1, h2, hn, hpos, hnum]
    simp [hset']

/-- C80: what is said about other types does not matter. -/
theorem C80_others {b : BpId} {kw p : Dict} {w : World} {s t : String} (c : Custom)
    (hname : List.lookup "name" kw = some (.str s)) (hp : List.lookup s w.env.entities = some (.dict p))
    (ht : List.lookup "type" p = some (.str t)) (hc : List.lookup t c = List.lookup t (w.bp b).custom) :
    layerMake b kw ((Op.setCustom b c).run w).2 =
      ((layerMake b kw w).1, ((Op.setCustom b c).run (layerMake b kw w).2).2) := by
  have hcust : ((Op.setCustom b c).run w).2.customOf (some b) = some c := by
    show some ((w.setBp b _).bp b).custom = _
    rw [setBp_bp_self]
  have hset : ∀ e, Entity.setName w.env (some c) e (.str s) = Entity.setName w.env (w.customOf (some b)) e (.str s) := by
    intro e
    have e1 : Dict.get? w.env.entities s = some (.dict p) := hp
    have e2 : (Val.dict p).subscript "type" = .ok (.str t) := (lookup_getItem ..).2 ht
    have e3 : mixinsFor (some c) (.str t) = mixinsFor (w.customOf (some b)) (.str t) := by
      unfold mixinsFor World.customOf
      simp only [Option.getD_some, Option.map_some]
      rw [hc]
    unfold Entity.setName
    simp only [e1, e2, e3]
  have hnew : Entity.new w.env (some c) (some b) kw = Entity.new w.env (w.customOf (some b)) (some b) kw := by
    unfold Entity.new
    rw [show Dict.get? kw "name" = some (.str s) from hname]
    cases Dict.get? kw "position" with
    | none => rfl
    | some position =>
      dsimp only
      simp only [hset]
  rw [run_setCustom, run_setCustom]
  rw [run_setCustom] at hcust
  dsimp only at hcust ⊢
  cases he : Entity.new w.env (w.customOf (some b)) (some b) kw with
  | error x =>
    rw [layerMake_of_error he]
    refine layerMake_of_error ?_
    rw [hcust]
    exact hnew.trans he
  | ok e =>
    have h1 : newEntity (some b) kw w = (.ok w.next, { w.setEnt w.next e with next := w.next + 1 }) := by
      unfold newEntity
      rw [he]
      rfl
    have h2 : newEntity (some b) kw (w.withCustom b c) = (.ok w.next,
        ({ w.setEnt w.next e with next := w.next + 1 } : World).withCustom b c) := by
      unfold newEntity
      rw [hcust, show (w.withCustom b c).env = w.env from rfl, hnew, he]
      rfl
    unfold layerMake
    rw [M.bind_eq, M.bind_eq, h1, h2]
    dsimp only
    rw [M.bind_eq, M.bind_eq, layerAdd_custom]
    generalize layerAdd b (.ent w.next) { w.setEnt w.next e with next := w.next + 1 } = q
    obtain ⟨q1, q2⟩ := q
    cases q1 <;> rfl

/-- C80: assigning a setting is like making the entity with it, also with custom behaviours, unless the behaviour comes
after `Items`. -/
theorem C80_like_make {b : BpId} {kw : Dict} {w w₀ : World} {r : Ref} {m : Mx} {k : String} (v : Val)
    (h : layerMake b kw w = (.ok r, w₀)) (hm : m ∈ behaviours w₀ r) (hk : k ∈ settings m)
    (hI : ¬ [Mx.Items, m].Sublist (behaviours w₀ r)) :
    (∃ w₁, (Op.setAttr r k v).run w₀ = (.ok (), w₁) ∧ layerMake b (Dict.set kw k v) w = (.ok r, w₁)) ∨
    (∃ x w₁, (Op.setAttr r k v).run w₀ = (.error x, w₁) ∧ layerMake b (Dict.set kw k v) w = (.error x, w)) :=
  like_make v h hm hk hI

/-- C80: modules are always taken where they can be assigned, whatever the order of the behaviours. -/
theorem C80_modules {b : BpId} {kw : Dict} {w w₀ : World} {r : Ref} (v : Val)
    (h : layerMake b kw w = (.ok r, w₀)) (hm : .Items ∈ behaviours w₀ r) :
    (∃ w₁, (Op.setAttr r "items" v).run w₀ = (.ok (), w₁) ∧ layerMake b (Dict.set kw "items" v) w = (.ok r, w₁)) ∨
    (∃ x w₁, (Op.setAttr r "items" v).run w₀ = (.error x, w₁) ∧ layerMake b (Dict.set kw "items" v) w = (.error x, w)) := by
  refine like_make v h hm (by decide) fun hs => ?_
  obtain ⟨e, n, he, hh⟩ := layerMake_new h
  rw [show (w₀.heap r).klass = e.klass by rw [hh]] at hs
  exact absurd (hs.nodup (Entity.new_nodup he)) (by decide)

/-- C80: a setting of a behaviour that comes after `Items` is refused with `TypeError`, whatever its value. -/
theorem C80_lost {b : BpId} {kw : Dict} {w w' : World} {r : Ref} {m : Mx} {k : String} {v : Val}
    (h : layerMake b (Dict.erase kw k) w = (.ok r, w')) (hk : k ∈ settings m)
    (hI : [Mx.Items, m].Sublist (behaviours w' r)) (hv : List.lookup k kw = some v) :
    layerMake b kw w = (.error .typeError, w) := by
  obtain ⟨e, n, he, hh⟩ := layerMake_new h
  unfold behaviours at hI
  rw [hh] at hI
  have hlo := Entity.new_leftover he (Entity.new_strict he (hI.subset (List.mem_cons_self ..)))
  obtain ⟨hk1, hk2⟩ := attrOwner_common (attrOwner_settings hk)
  rw [settings_eq] at hk
  refine layerMake_of_error (Entity.new_erase ?_ he (fun a ha => ?_))
  · intro hmem
    simp only [fixedKeys, List.mem_cons, List.not_mem_nil, or_false] at hmem
    rcases hmem with rfl | rfl | rfl | rfl | rfl | rfl | rfl | rfl | rfl <;>
      first | exact hk2 (by decide) | exact hk1 (by decide)
  · rw [hlo] at ha ⊢
    exact initChain_lost hI hk (Entity.new_nodup he) (by rw [get_eraseKeys hk1]; exact hv) ha

/-- C80: it can be assigned afterwards: `entity.recipe = v` raises or not as for any other entity with that behaviour. -/
theorem C80_assign {w : World} {r r' : Ref} {m : Mx} {k : String} (v : Val) (hm : m ∈ behaviours w r)
    (hm' : m ∈ behaviours w r') (hk : k ∈ settings m) (hs : (w.heap r).strict = (w.heap r').strict)
    (hf : k ≠ "filters") : ((Op.setAttr r k v).run w).1 = ((Op.setAttr r' k v).run w).1 := by
  have hown := attrOwner_settings hk
  have hhas : ∀ q, m ∈ behaviours w q → (w.heap q).klass.has m = true := by
    intro q hq
    unfold Klass.has
    simpa using Klass.mem_chain.1 hq
  rw [run_setAttr, run_setAttr]
  unfold Entity.setAttr
  rw [hown]
  dsimp only
  rw [if_pos (hhas r hm), if_pos (hhas r' hm'), hs]
  unfold mxAssign
  split <;> first | rfl | exact absurd rfl hf

/-- C80: a type that has been given `Items` does not take the settings of the table any more. -/
theorem C80_shadowed {b : BpId} {kw p : Dict} {w w' : World} {r : Ref} {s t k : String} {cs rs : List Mx} {m : Mx}
    (hname : List.lookup "name" kw = some (.str s)) (hp : List.lookup s w.env.entities = some (.dict p))
    (ht : List.lookup "type" p = some (.str t)) (hcs : List.lookup t (w.bp b).custom = some cs) (hi : .Items ∈ cs)
    (hrs : List.lookup t entityPrototypes = some rs) (hm : m ∈ rs) (hk : k ∈ settings m)
    (hg : List.lookup k kw ≠ none) : layerMake b kw w ≠ (.ok r, w') := by
  intro h
  obtain ⟨hk1, hk2⟩ := attrOwner_common (attrOwner_settings hk)
  have hne : k ∉ entityKeys := hk1
  rcases C32_entity h hg with h1 | ⟨m', hm', -⟩
  · exact hne h1
  · obtain ⟨e, n, he, hh⟩ := layerMake_new h
    have hkl : (w'.heap r).klass = e.klass := by rw [hh]
    have hs : (w'.heap r).strict = true := by
      rw [hkl] at hm'
      rw [show (w'.heap r).strict = e.strict by rw [hh]]
      exact Entity.new_strict he hm'
    obtain ⟨s', p', t', rs', e1, e2, e3, e4, -, hn, hsub, -⟩ := C80_class h hs
    rw [hname] at e1; cases e1
    rw [hp] at e2; cases e2
    rw [ht] at e3; cases e3
    rw [hrs] at e4; cases e4
    have hpair : [Mx.Items, m].Sublist (behaviours w' r) := by
      refine List.Sublist.trans ?_ hsub
      unfold customFor
      rw [hcs]
      exact (List.singleton_sublist.2 hi).append (List.singleton_sublist.2 hm)
    obtain ⟨v, hv⟩ := Option.ne_none_iff_exists'.1 hg
    unfold behaviours at hpair hn
    rw [hkl] at hpair hn
    rw [settings_eq] at hk
    exact initChain_behind hpair hk hn (by rw [get_eraseKeys hk1]; exact hv) (Entity.new_chain he)

/-- C80 is false of the code: whatever the custom behaviours, no assembling machine with modules and a recipe, and no
rocket silo with modules and automatic launch can be imported. -/
theorem C80_modules_false {env : Env} {w : World} (h : Reachable env w) {b : BpId} {data : Val} {d : Dict} {l : List Val}
    (hd : Content data d) (hl : ListAt d "entities" l) {kw p : Dict} (hkw : Val.dict kw ∈ l) {s t k : String}
    (hname : List.lookup "name" kw = some (.str s)) (hp : List.lookup s w.env.entities = some (.dict p))
    (ht : List.lookup "type" p = some (.str t))
    (htk : (t, k) = ("assembling-machine", "recipe") ∨ (t, k) = ("rocket-silo", "auto_launch"))
    (hitems : List.lookup "items" kw ≠ none) (hk : List.lookup k kw ≠ none) (w' : World) :
    load b data w ≠ (.ok (), w') := by
  intro hw
  obtain ⟨kw', r, w'', he, hm⟩ := C65_import_makes h hd hl hw hkw
  cases he
  have hrow : ∃ m rs, List.lookup t entityPrototypes = some rs ∧ m ∈ rs ∧ k ∈ settings m ∧
      ∀ x ∈ rs, Mx.Items ∉ lineage x := by
    simp only [Prod.mk.injEq] at htk
    rcases htk with ⟨rfl, rfl⟩ | ⟨rfl, rfl⟩
    · exact ⟨.Recipe, [.Rotatable, .Recipe], rfl, by decide, by decide, by decide⟩
    · exact ⟨.Silo, [.Silo], rfl, by decide, by decide, by decide⟩
  obtain ⟨m, rs, hrs, hmr, hks, hno⟩ := hrow
  rcases C32_entity hm hitems with h1 | ⟨m', hm', hkm'⟩
  · exact absurd h1 (by decide)
  · have : m' = .Items := by
      rw [settings_eq] at hkm'
      exact mxKeys_disjoint hkm' (by decide)
    subst this
    obtain ⟨e, n, he, hh⟩ := layerMake_new hm
    have hs : (w''.heap r).strict = true := by
      rw [show (w''.heap r).klass = e.klass by rw [hh]] at hm'
      rw [show (w''.heap r).strict = e.strict by rw [hh]]
      exact Entity.new_strict he hm'
    obtain ⟨s', p', t', rs', e1, e2, e3, e4, -, -, -, hmem⟩ := C80_class hm hs
    rw [hname] at e1; cases e1
    rw [hp] at e2; cases e2
    rw [ht] at e3; cases e3
    rw [hrs] at e4; cases e4
    obtain ⟨x, hx, hlx⟩ := (hmem _).1 hm'
    rcases List.mem_append.1 hx with hx | hx
    · have hxi : x = .Items := by
        revert hlx
        cases x <;> decide
      subst hxi
      unfold customFor at hx
      cases hcs : List.lookup t (w.bp b).custom with
      | none => rw [hcs] at hx; cases hx
      | some cs =>
        rw [hcs] at hx
        exact C80_shadowed hname hp ht hcs hx hrs hmr hks hk hm
    · exact hno x hx hlx

/-! ### Exports -/

/-- C80 and C33: an entity with custom behaviours, changed by any later calls that neither rename it nor replace
prototype data, exports settings that a blueprint with the same custom behaviours accepts and exports again.  Missing
for a full statement: nothing may come after `Items`, the control behaviours have to be those of the table, and the
constants and filter names have to be readable, as for C33. -/
theorem C80_exports_again_partial {b b2 : BpId} {kw d : Dict} {w0 w1 w w' w2 : World} {r : Ref} {t : String}
    (hm : layerMake b kw w0 = (.ok r, w1)) (hs : (w1.heap r).strict = true)
    (ht : TypeOf w0.env (w1.heap r).name t)
    (hi : ∀ m, ¬ [Mx.Items, m].Sublist (behaviours w1 r)) (hk : TableControls (w1.heap r).klass t)
    (hl : Later r w1 w) (he : entToJson r w = (.ok (.dict d), w'))
    (hc : ∀ c, (w.heap r).cb = some c → ReadableConstants c) (hf : ReadableNames w0.env (w.heap r) d)
    (henv : w2.env = w0.env) (hw2 : (w2.bp b2).conns = [])
    (hcs : ∀ t', TypeOf w0.env (w.heap r).name t' → customFor (w2.bp b2) t' = customFor (w0.bp b) t) :
    ∃ r2 w3 d' w4, layerMake b2 d w2 = (.ok r2, w3) ∧ entToJson r2 w3 = (.ok (.dict d'), w4) ∧
      entitySettings d' = entitySettings d ∧ behaviours w3 r2 = behaviours w r := by
  obtain ⟨e, n, hnew, hh⟩ := layerMake_new hm
  have hn : (w1.heap r).klass.chain.Nodup := by
    rw [show (w1.heap r).klass = e.klass by rw [hh]]
    exact Entity.new_nodup hnew
  obtain ⟨r2, w3, d', w4, k1, k2, k3, k4⟩ := custom_again hm hs
    (fun t' ht' => by rw [TypeOf.inj ht' ht]) (fun _ _ _ _ => TableControls.good hk hn hi) hl he hc hf henv hw2 hcs
  exact ⟨r2, w3, d', w4, k1, k2, k3, by unfold behaviours; rw [k4]⟩

/-- C80 and C33: in particular with one custom behaviour that has nothing in the control behaviour and is not
`Items`, whatever the type. -/
theorem C80_plain_exports_again_partial {b b2 : BpId} {kw d : Dict} {w0 w1 w w' w2 : World} {r : Ref} {t : String} {m : Mx}
    (hm : layerMake b kw w0 = (.ok r, w1)) (hs : (w1.heap r).strict = true)
    (ht : TypeOf w0.env (w1.heap r).name t) (hcm : customFor (w0.bp b) t = [m]) (hpl : m ∈ plainBehaviours)
    (hl : Later r w1 w) (he : entToJson r w = (.ok (.dict d), w'))
    (hc : ∀ c, (w.heap r).cb = some c → ReadableConstants c) (hf : ReadableNames w0.env (w.heap r) d)
    (henv : w2.env = w0.env) (hw2 : (w2.bp b2).conns = [])
    (hcs : ∀ t', TypeOf w0.env (w.heap r).name t' → customFor (w2.bp b2) t' = [m]) :
    ∃ r2 w3 d' w4, layerMake b2 d w2 = (.ok r2, w3) ∧ entToJson r2 w3 = (.ok (.dict d'), w4) ∧
      entitySettings d' = entitySettings d ∧ behaviours w3 r2 = behaviours w r := by
  obtain ⟨r2, w3, d', w4, k1, k2, k3, k4⟩ := custom_again hm hs
    (fun t' ht' => by rw [TypeOf.inj ht' ht, hcm]) (fun ty ms h1 h2 => plain_good m hpl (ty, ms) (mem_of_lookup h1) _ h2)
    hl he hc hf henv hw2 hcs
  exact ⟨r2, w3, d', w4, k1, k2, k3, by unfold behaviours; rw [k4]⟩

/-! ### The hypotheses can be met -/

namespace Sample

/-- The empty world, with modules for assembling machines. -/
def modular : World := ((Op.setCustom 0 [("assembling-machine", [.Items])]).run (World.init env)).2

theorem modular_reachable : Reachable env modular :=
  .step (.setCustom 0 [("assembling-machine", [.Items])]) .init trivial

def asmKw : Dict := [("name", .str "asm"), ("position", .dict [("x", .int 0), ("y", .int 0)])]

/-- An assembling machine that takes modules. -/
def asmMade : World := (layerMake 0 asmKw modular).2

theorem asmMade_run : layerMake 0 asmKw modular = (.ok 0, asmMade) := Prod.ext (by decide +kernel) rfl

end Sample

example : behaviours Sample.asmMade 0 = [.Items, .Rotatable, .Recipe] ∧ (Sample.asmMade.heap 0).strict = true := by
  decide +kernel

example : ∃ s p t rs, List.lookup "name" Sample.asmKw = some (.str s) ∧
    List.lookup s Sample.modular.env.entities = some (.dict p) ∧
    List.lookup "type" p = some (.str t) ∧ List.lookup t entityPrototypes = some rs ∧
    DerivedFirst (customFor (Sample.modular.bp 0) t ++ rs) := by
  obtain ⟨s, p, t, rs, h1, h2, h3, h4, h5, -⟩ := C80_class Sample.asmMade_run (by decide +kernel)
  exact ⟨s, p, t, rs, h1, h2, h3, h4, h5⟩

-- recipes given as custom behaviour as well
example : ∃ v, layerMake 0 Sample.asmKw v = (.error .typeError, v) :=
  ⟨_, C80_conflict (s := "asm") (t := "assembling-machine") [("assembling-machine", [.Recipe])] Sample.asmMade_run
    (by decide +kernel) rfl rfl rfl rfl (by unfold DerivedFirst; decide)⟩

example : (layerMake 0 Sample.asmKw ((Op.setCustom 0 [("lab", [.Items]), ("assembling-machine", [.Items])]).run
    Sample.modular).2).1 = (layerMake 0 Sample.asmKw Sample.modular).1 :=
  have h := C80_others (b := 0) (kw := Sample.asmKw) (w := Sample.modular) (s := "asm") (t := "assembling-machine")
    [("lab", [.Items]), ("assembling-machine", [.Items])] rfl rfl rfl rfl
  (congrArg Prod.fst h).trans rfl

-- the hypotheses of `C80_like_make`
example : ¬ [Mx.Items, .Items].Sublist (behaviours Sample.asmMade 0) ∧ .Items ∈ behaviours Sample.asmMade 0 ∧
    "items" ∈ settings .Items := by
  decide +kernel

-- modules are taken …
example : ∃ w₁, layerMake 0 (Dict.set Sample.asmKw "items" (.dict [("iron", .int 2)])) Sample.modular = (.ok 0, w₁) := by
  rcases C80_modules (.dict [("iron", .int 2)]) Sample.asmMade_run (by decide +kernel) with ⟨w₁, -, h⟩ | ⟨x, w₁, h, -⟩
  · exact ⟨w₁, h⟩
  · have : ((Op.setAttr 0 "items" (.dict [("iron", .int 2)])).run Sample.asmMade).1 = .ok () := by decide +kernel
    rw [h] at this
    cases this

-- … but then no recipe, which can be assigned afterwards
example : layerMake 0 (Sample.asmKw ++ [("recipe", .str "gear")]) Sample.modular = (.error .typeError, Sample.modular) :=
  C80_lost (m := .Recipe) (k := "recipe") (v := .str "gear") (w' := Sample.asmMade) (r := 0)
    (by exact Sample.asmMade_run) (by decide) (by decide +kernel) rfl

example : ((Op.setAttr 0 "recipe" (.str "gear")).run Sample.asmMade).1 = .ok () := by decide +kernel

example : ∃ (w : World) (r r' : Ref), r ≠ r' ∧ .Recipe ∈ behaviours w r ∧ .Recipe ∈ behaviours w r' ∧ behaviours w r ≠ behaviours w r' ∧
    (w.heap r).strict = (w.heap r').strict :=
  ⟨(layerMake 1 Sample.asmKw Sample.asmMade).2, 0, 1, by decide, by decide +kernel, by decide +kernel, by decide +kernel,
    by decide +kernel⟩

example (r : Ref) (w' : World) : layerMake 0 (Sample.asmKw ++ [("recipe", .str "gear")]) Sample.modular ≠ (.ok r, w') :=
  C80_shadowed (s := "asm") (t := "assembling-machine") (k := "recipe") (m := .Recipe) rfl rfl rfl rfl (by decide) rfl
    (by decide) (by decide) (by decide)

example (w' : World) : load 0 (.dict [("entities", .list [.dict (Sample.asmKw ++
    [("recipe", .str "gear"), ("items", .dict [("iron", .int 2)])])])]) Sample.modular ≠ (.ok (), w') :=
  C80_modules_false Sample.modular_reachable (.bare _ rfl) (.inl rfl) (List.mem_singleton.2 rfl) (s := "asm")
    rfl rfl rfl (.inl rfl) (by decide) (by decide) w'

/-! ### Exports with custom behaviours -/

namespace Sample

/-- An assembling machine that takes modules, with a recipe assigned afterwards. -/
def asmRecipe : World := ((Op.setAttr 0 "recipe" (.str "gear")).run asmMade).2

def asmOut : Dict := ("entity_number", .int 1) :: asmKw ++ [("recipe", .str "gear")]

theorem asmRecipe_out : entToJson 0 asmRecipe = (.ok (.dict asmOut), (entToJson 0 asmRecipe).2) :=
  Sample.run_eq (by decide +kernel)

theorem asmRecipe_reachable : Reachable env asmRecipe :=
  .step (.setAttr 0 "recipe" (.str "gear")) (.step (.make 0 asmKw) modular_reachable trivial)
    (by show 0 < _; decide +kernel)

/-- The empty world, with colours for locomotives. -/
def colourful : World := ((Op.setCustom 0 [("locomotive", [.Color])]).run (World.init env)).2

def locoKw : Dict := ent "loco" 0 0 ++ [("color", .dict [("r", .int 1), ("g", .int 0), ("b", .int 0), ("a", .int 1)])]

/-- A red locomotive. -/
def redLoco : World := (layerMake 0 locoKw colourful).2

theorem redLoco_run : layerMake 0 locoKw colourful = (.ok 0, redLoco) := Prod.ext (by decide +kernel) rfl

end Sample

/-- C80 is false of the code, also for exports: the recipe assigned to an assembling machine with modules is exported,
and no blueprint with the same custom behaviours takes the export. -/
theorem C80_reload_false : ∃ env w w' d, Reachable env w ∧ entToJson 0 w = (.ok (.dict d), w') ∧
    ∀ (w2 : World) (b2 : BpId), w2.env = env → (w2.bp b2).custom = (w.bp 0).custom → ∀ r2 w3, layerMake b2 d w2 ≠ (.ok r2, w3) := by
  refine ⟨Sample.env, _, _, _, Sample.asmRecipe_reachable, Sample.asmRecipe_out, fun w2 b2 henv hcs r2 w3 => ?_⟩
  have hc : (Sample.asmRecipe.bp 0).custom = [("assembling-machine", [.Items])] := rfl
  exact C80_shadowed (s := "asm") (t := "assembling-machine") (k := "recipe") (m := .Recipe) rfl (by rw [henv]; rfl) rfl
    (by rw [hcs, hc]; rfl) (by decide) rfl (by decide) (by decide) (by decide)

example : ∃ r2 w3 d' w4, layerMake 0 (("entity_number", .int 1) :: Sample.locoKw) Sample.colourful = (.ok r2, w3) ∧
    entToJson r2 w3 = (.ok (.dict d'), w4) ∧ entitySettings d' = Sample.locoKw := by
  obtain ⟨r2, w3, d', w4, h1, h2, h3, -⟩ := C80_plain_exports_again_partial (b := 0) (b2 := 0) (m := .Color) (t := "locomotive")
    (w2 := Sample.colourful) Sample.redLoco_run (by decide +kernel)
    ⟨_, rfl, rfl⟩ rfl (by decide) .refl (Sample.run_eq (a := .ok (Val.dict (("entity_number", .int 1) :: Sample.locoKw))) (by decide +kernel))
    (fun c hc => by cases hc) (fun h => absurd h (by decide +kernel)) rfl rfl
    (fun t' ht => by rw [TypeOf.inj ht (ty' := "locomotive") ⟨_, rfl, rfl⟩]; rfl)
  exact ⟨r2, w3, d', w4, h1, h2, h3.trans (by decide +kernel)⟩

-- the hypotheses of `C80_exports_again_partial`
example : (∀ m, ¬ [Mx.Items, m].Sublist (behaviours Sample.redLoco 0)) ∧
    TableControls (Sample.redLoco.heap 0).klass "locomotive" :=
  ⟨fun m => by cases m <;> decide +kernel, _, _, rfl, rfl, by decide +kernel, by decide +kernel⟩

end Verif
