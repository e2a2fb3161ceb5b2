import Verif.Proofs.AssignOps
import Verif.Proofs.Behaviours
import Verif.Proofs.Settings
/-!
# Helper lemmas: custom behaviours of a blueprint
-/
set_option autoImplicit false

namespace Verif
open Spec

section
variable {env : Env} {strict sh : Bool} {lo : Exc}

private theorem pair_tail {m m₀ : Mx} {ms : List Mx} (h : [Mx.Items, m₀].Sublist (m :: ms)) (hm : m ≠ .Items) :
    [Mx.Items, m₀].Sublist ms := by
  cases h with
  | cons _ h => exact h
  | cons_cons _ h => exact absurd rfl hm

private theorem pair_mem {m₀ : Mx} {ms : List Mx} (h : [Mx.Items, m₀].Sublist ms) : m₀ ∈ ms := h.subset (by simp)

private theorem pair_head {m₀ : Mx} {ms : List Mx} (h : [Mx.Items, m₀].Sublist (.Items :: ms)) : m₀ ∈ ms := by
  cases h with
  | cons _ h => exact pair_mem h
  | cons_cons _ h => exact h.subset (by simp)

/-- A setting of a behaviour after `Items` is lost. -/
theorem initChain_behind {ms : List Mx} {args : Bool} {kw : Dict} {a a' : Attrs} {k : String} {v : Val} {m₀ : Mx}
    (hI : [Mx.Items, m₀].Sublist ms) (hk : k ∈ mxKeys m₀) (hn : ms.Nodup) (hv : Dict.get? kw k = some v) :
    initChain env strict sh lo ms args kw a ≠ .ok a' := by
  intro h
  induction ms generalizing args kw a with
  | nil => cases hI
  | cons m ms ih =>
    have hn' := List.nodup_cons.1 hn
    by_cases hm : m = .Items
    · subst hm
      have hkm : k ∉ mxKeys .Items := fun h' => by
        have := mxKeys_disjoint h' hk
        subst this
        exact hn'.1 (pair_head hI)
      have hv' : Dict.get? (eraseKeys kw (mxKeys .Items)) k = some v := by rw [get_eraseKeys hkm, hv]
      unfold initChain at h
      split at h
      · cases h
      · dsimp only at h
        rw [if_pos rfl] at h
        have := (initChain_args h).1
        rw [ne_nil_of_get hv'] at this
        simp at this
    · have hI' := pair_tail hI hm
      have hkm : k ∉ mxKeys m := fun h' => by
        have := mxKeys_disjoint h' hk
        subst this
        exact hn'.1 (pair_mem hI')
      unfold initChain at h
      split at h
      · cases h
      · dsimp only at h
        rw [if_neg hm] at h
        exact ih hI' hn'.2 (by rw [get_eraseKeys hkm, hv]) h

/-- The same, with the exception. -/
theorem initChain_lost {ms : List Mx} {args : Bool} {kw : Dict} {a a' : Attrs} {k : String} {v : Val} {m₀ : Mx}
    (hI : [Mx.Items, m₀].Sublist ms) (hk : k ∈ mxKeys m₀) (hn : ms.Nodup) (hv : Dict.get? kw k = some v)
    (h : initChain env strict sh lo ms args (Dict.erase kw k) a = .ok a') :
    initChain env strict sh lo ms args kw a = .error lo := by
  induction ms generalizing args kw a with
  | nil => cases hI
  | cons m ms ih =>
    have hn' := List.nodup_cons.1 hn
    have hkm : k ∉ mxKeys m := fun h' => by
      have := mxKeys_disjoint h' hk
      subst this
      by_cases hm : m = .Items
      · subst hm
        exact hn'.1 (pair_head hI)
      · exact hn'.1 (pair_mem (pair_tail hI hm))
    have hr : mxRead env strict sh m (Dict.get? (Dict.erase kw k)) = mxRead env strict sh m (Dict.get? kw) :=
      mxRead_congr (fun k' hk'' => get_erase_ne (by rintro rfl; exact hkm hk''))
    have hv' : Dict.get? (eraseKeys kw (mxKeys m)) k = some v := by rw [get_eraseKeys hkm, hv]
    unfold initChain at h ⊢
    rw [hr] at h
    split at h
    · cases h
    · rename_i w hw
      dsimp only at h ⊢
      rw [erase_eraseKeys] at h
      split at h
      · rename_i hm
        rw [if_pos hm]
        obtain ⟨h1, h2⟩ := initChain_args h
        rw [ne_nil_of_get hv']
        simpa using h2
      · rename_i hm
        rw [if_neg hm]
        exact ih (pair_tail hI hm) hn'.2 hv' h

end

/-- The class of a new entity: bare, or made of the custom behaviours and those of the row. -/
theorem Entity.new_made {env : Env} {custom : Option Custom} {layer : Option BpId} {kw : Dict} {e : Entity}
    (h : Entity.new env custom layer kw = .ok e) :
    (e.strict = false ∧ e.klass = Klass.entity) ∨
    (e.strict = true ∧ ∃ data t rs, Dict.get? env.entities e.name = some data ∧ List.lookup "name" kw = some (.str e.name) ∧
      data.subscript "type" = .ok (.str t) ∧ prototypeMixins t = some rs ∧
      Klass.extend 0 Klass.entity (((custom.getD []).lookup t).getD [] ++ rs) = .ok e.klass) := by
  obtain ⟨-, -, name, position, number, e', hn, -, -, hs, hf⟩ := Entity.new_ok.1 h
  obtain ⟨pos, dir, cb, a, -, -, -, -, rfl⟩ := Entity.finish_ok.1 hf
  obtain ⟨s, rfl, ⟨h0, rfl⟩ | ⟨h0, data, t, ms, kl, hd, ht, hms, hk, rfl⟩⟩ := Entity.setName_ok hs
  · exact .inl ⟨h0, rfl⟩
  · refine .inr ⟨h0, data, ?_⟩
    unfold mixinsFor at hms
    split at hms
    · rename_i t
      split at hms
      · cases hms
      · rename_i rs hrs
        cases hms
        exact ⟨t, rs, hd, hn, ht, hrs, hk⟩
    · split at hms <;> cases hms

theorem Entity.new_nodup {env : Env} {custom : Option Custom} {layer : Option BpId} {kw : Dict} {e : Entity}
    (h : Entity.new env custom layer kw = .ok e) : e.klass.chain.Nodup := by
  rcases Entity.new_made h with ⟨-, hk⟩ | ⟨-, _, _, _, -, -, -, -, hk⟩
  · rw [hk]; decide
  · exact (Klass.extend_chain hk).1

theorem Entity.new_strict {env : Env} {custom : Option Custom} {layer : Option BpId} {kw : Dict} {e : Entity} {m : Mx}
    (h : Entity.new env custom layer kw = .ok e) (hm : m ∈ e.klass.chain) : e.strict = true := by
  rcases Entity.new_made h with ⟨-, hk⟩ | ⟨hs, -⟩
  · rw [hk] at hm; cases hm
  · exact hs

theorem layerMake_env {b : BpId} {kw : Dict} {w w' : World} {r : Ref} (h : layerMake b kw w = (.ok r, w')) :
    w'.env = w.env := by
  unfold layerMake at h
  obtain ⟨s, v, hn, h⟩ := M.bind_eq_ok.1 h
  obtain ⟨e2, he2, rfl, rfl⟩ := newEntity_ok hn
  obtain ⟨_, u, ha, h⟩ := M.bind_eq_ok.1 h
  cases h
  unfold layerAdd at ha
  dsimp only at ha
  split at ha
  · cases ha
  · split at ha <;> (cases ha; rfl)

/-- Assigning a setting is like making the entity with it, unless its behaviour comes after `Items`. -/
theorem like_make {b : BpId} {kw : Dict} {w w₀ : World} {r : Ref} {m : Mx} {k : String} (v : Val)
    (h : layerMake b kw w = (.ok r, w₀)) (hm : m ∈ (w₀.heap r).klass.chain) (hk : k ∈ settings m)
    (hI : ¬ [Mx.Items, m].Sublist (w₀.heap r).klass.chain) :
    (∃ w₁, (Op.setAttr r k v).run w₀ = (.ok (), w₁) ∧ layerMake b (Dict.set kw k v) w = (.ok r, w₁)) ∨
    (∃ x w₁, (Op.setAttr r k v).run w₀ = (.error x, w₁) ∧ layerMake b (Dict.set kw k v) w = (.error x, w)) := by
  have henv : w₀.env = w.env := layerMake_env h
  obtain ⟨e, n, he, hh⟩ := layerMake_new h
  have hown := attrOwner_settings hk
  rw [settings_eq] at hk
  rw [hh] at hm hI
  have hnew := Entity.new_assign (v := v) he hown hk hm (Entity.new_nodup he) hI
  have hhas : e.klass.has m = true := by
    unfold Klass.has
    simpa using Klass.mem_chain.1 hm
  have hset : ∀ a, (Entity.setAttr w.env { e with auto := a } k v) =
      ((mxAssign w.env e.strict e.klass.insFiltersShadowed k v).1, { e with auto := a, attrs := setAll e.attrs (mxAssign w.env e.strict e.klass.insFiltersShadowed k v).2 }) := by
    intro a
    unfold Entity.setAttr
    rw [hown]
    dsimp only
    rw [if_pos hhas]
  have hset' : e.setAttr w.env k v =
      ((mxAssign w.env e.strict e.klass.insFiltersShadowed k v).1, { e with attrs := setAll e.attrs (mxAssign w.env e.strict e.klass.insFiltersShadowed k v).2 }) := hset e.auto
  have hrun : (Op.setAttr r k v).run w₀ =
      ((mxAssign w.env e.strict e.klass.insFiltersShadowed k v).1,
        w₀.upd r (fun e' => { e' with attrs := setAll e'.attrs (mxAssign w.env e.strict e.klass.insFiltersShadowed k v).2 })) := by
    rw [run_setAttr, henv, hh, hset]
    unfold World.upd
    rw [hh]
  rw [hset'] at hnew
  rw [hrun]
  cases hx : (mxAssign w.env e.strict e.klass.insFiltersShadowed k v).1 with
  | error x =>
    rw [hx] at hnew
    exact .inr ⟨x, _, rfl, layerMake_of_error hnew⟩
  | ok u =>
    rw [hx] at hnew
    exact .inl ⟨_, rfl, layerMake_upd (mild_attrs _) h he hnew⟩

theorem Entity.setName_conflict {env : Env} {custom : Option Custom} {e : Entity} {s : String} {data t : Val} {ms : List Mx}
    {x : Exc} (hs : e.strict = true) (hd : Dict.get? env.entities s = some data) (ht : data.subscript "type" = .ok t)
    (hm : mixinsFor custom t = .ok ms) (hk : Klass.extend e.depth e.klass ms = .error x) :
    e.setName env custom (.str s) = (.error x, { e with name := s }) := by
  unfold setName
  rw [hs]
  simp only [Bool.not_true, Bool.false_eq_true, if_false, hd, ht, hm, hk]

/-- The world with other custom behaviours. -/
def World.withCustom (w : World) (b : BpId) (c : Custom) : World := w.setBp b { w.bp b with custom := c }

theorem run_setCustom (w : World) (b : BpId) (c : Custom) : (Op.setCustom b c).run w = (.ok (), w.withCustom b c) := rfl

theorem withCustom_bp (w : World) (b : BpId) (c : Custom) : (w.withCustom b c).bp b = { w.bp b with custom := c } :=
  setBp_bp_self ..

theorem withCustom_put (w : World) (b : BpId) (c : Custom) (l : List Ref) :
    (w.withCustom b c).setBp b { (w.withCustom b c).bp b with objs := l } =
      (w.setBp b { w.bp b with objs := l }).withCustom b c := by
  rw [withCustom_bp]
  unfold World.withCustom
  rw [setBp_bp_self]
  unfold World.setBp
  simp only [World.mk.injEq, true_and]
  funext d
  split <;> rfl

theorem withCustom_sort (w : World) (b : BpId) (c : Custom) : (w.withCustom b c).sort b = (w.sort b).withCustom b c := by
  have hh : (w.withCustom b c).heap = w.heap := rfl
  have ho : ((w.withCustom b c).bp b).objs = (w.bp b).objs := by rw [withCustom_bp]
  unfold World.sort
  dsimp only
  rw [hh, ho, withCustom_put]
  rfl

theorem layerAdd_custom (w : World) (b : BpId) (c : Custom) (r : Ref) :
    layerAdd b (.ent r) (w.withCustom b c) =
      ((layerAdd b (.ent r) w).1, (layerAdd b (.ent r) w).2.withCustom b c) := by
  have hh : (w.withCustom b c).heap = w.heap := rfl
  have ho : ((w.withCustom b c).bp b).objs = (w.bp b).objs := by rw [withCustom_bp]
  unfold layerAdd
  dsimp only
  simp only [hh, ho]
  split
  · rfl
  · split
    · rfl
    · rw [withCustom_put, ← withCustom_sort]
      rfl

theorem ItemsLast.not_pair {ms : List Mx} {m : Mx} (h : ItemsLast ms) : ¬ [Mx.Items, m].Sublist ms := by
  induction ms with
  | nil => intro h; cases h
  | cons x ms ih =>
    intro hs
    cases hs with
    | cons _ hs => exact ih h.2 hs
    | cons_cons _ hs =>
      rw [h.1 rfl] at hs
      cases hs

/-- A setting that was given is not behind `Items`. -/
theorem given_not_behind {b : BpId} {kw : Dict} {w w' : World} {r : Ref} {m : Mx} {k : String} {v : Val}
    (h : layerMake b kw w = (.ok r, w')) (hk : k ∈ settings m) (hv : List.lookup k kw = some v) :
    ¬ [Mx.Items, m].Sublist (w'.heap r).klass.chain := by
  intro hp
  obtain ⟨hk1, -⟩ := attrOwner_common (attrOwner_settings hk)
  obtain ⟨e, n, he, hh⟩ := layerMake_new h
  rw [show (w'.heap r).klass = e.klass by rw [hh]] at hp
  rw [settings_eq] at hk
  exact initChain_behind hp hk (Entity.new_nodup he) (by rw [get_eraseKeys hk1]; exact hv) (Entity.new_chain he)

/-! ## Exports of entities with custom behaviours -/

theorem itemsLast_of {ms : List Mx} (h : ∀ m, ¬ [Mx.Items, m].Sublist ms) : ItemsLast ms := by
  induction ms with
  | nil => trivial
  | cons x ms ih =>
    refine ⟨?_, ih fun m hm => h m (hm.cons x)⟩
    rintro rfl
    cases ms with
    | nil => rfl
    | cons y ms => exact absurd (((List.nil_sublist ms).cons_cons y).cons_cons Mx.Items) (h y)

theorem TableControls.good {k : Klass} {t : String} (h : TableControls k t) (hn : k.chain.Nodup)
    (hi : ∀ m, ¬ [Mx.Items, m].Sublist k.chain) : GoodKlass k := by
  obtain ⟨rs, k₀, h1, h2, h3, h4⟩ := h
  have := (rows_good (t, rs) (mem_of_lookup h1) _ h2).2.2
  refine ⟨hn, itemsLast_of hi, ?_⟩
  rw [h3, h4]
  exact this

theorem plain_good : ∀ m ∈ plainBehaviours, ∀ p ∈ entityPrototypes, ∀ k,
    Klass.extend 0 Klass.entity ([m] ++ p.2) = .ok k → GoodKlass k := by
  have h : (plainBehaviours.all fun m => entityPrototypes.all fun p => match Klass.extend 0 Klass.entity ([m] ++ p.2) with
    | .ok k => decide (GoodKlass k) | .error _ => true) = true := by decide +kernel
  intro m hm p hp k hk
  have := List.all_eq_true.1 (List.all_eq_true.1 h m hm) p hp
  rw [hk] at this
  exact of_decide_eq_true this

theorem typeOf_of {env : Env} {name ty : String} {data : Val} (h1 : Dict.get? env.entities name = some data)
    (h2 : data.subscript "type" = .ok (.str ty)) : TypeOf env name ty := by
  obtain ⟨d, rfl, hl⟩ := subscript_ok.1 h2
  exact ⟨d, h1, hl⟩

theorem TypeOf.inj {env : Env} {name ty ty' : String} (h : TypeOf env name ty) (h' : TypeOf env name ty') : ty = ty' := by
  obtain ⟨d, h1, h2⟩ := h
  obtain ⟨d', h3, h4⟩ := h'
  rw [h1] at h3
  cases h3
  rw [h2] at h4
  cases h4
  rfl

/-- The round trip of one entity with the custom behaviours of its blueprint. -/
theorem custom_again {cs : List Mx} {b b2 : BpId} {kw d : Dict} {w0 w1 w w' w2 : World} {r : Ref}
    (hm : layerMake b kw w0 = (.ok r, w1)) (hs : (w1.heap r).strict = true)
    (hcs : ∀ t, TypeOf w0.env (w1.heap r).name t → customFor (w0.bp b) t = cs)
    (hg : ∀ ty ms, prototypeMixins ty = some ms → Klass.extend 0 Klass.entity (cs ++ ms) = .ok (w1.heap r).klass →
      GoodKlass (w1.heap r).klass) (hl : Later r w1 w)
    (he : entToJson r w = (.ok (.dict d), w'))
    (hc : ∀ c, (w.heap r).cb = some c → ReadableConstants c) (hf : ReadableNames w0.env (w.heap r) d)
    (henv : w2.env = w0.env) (hw2 : (w2.bp b2).conns = [])
    (hcs2 : ∀ t, TypeOf w0.env (w.heap r).name t → customFor (w2.bp b2) t = cs) :
    ∃ r2 w3 d' w4, layerMake b2 d w2 = (.ok r2, w3) ∧ entToJson r2 w3 = (.ok (.dict d'), w4) ∧
      entitySettings d' = entitySettings d ∧ (w3.heap r2).klass = (w.heap r).klass := by
  obtain ⟨h1, h2, h3⟩ := SolidIn.layerMake hm hs (fun data ty e1 e2 => hcs ty (typeOf_of e1 e2)) hg
  obtain ⟨-, h5, h6⟩ := SolidP.later h1 h3 hl
  rw [h2] at h5
  obtain ⟨r2, w3, d', w4, k1, k2, k3, k4, -⟩ := SolidIn.again h6 he hc (h5.symm ▸ hf) (henv.trans h5.symm) hw2
    (fun data ty e1 e2 => hcs2 ty (h5 ▸ typeOf_of e1 e2))
  exact ⟨r2, w3, d', w4, k1, k2, k3, k4⟩

end Verif
