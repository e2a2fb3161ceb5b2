import Verif.Proofs.Except
import Verif.Proofs.Dict
import Verif.Proofs.EntTrip
import Verif.Spec.Raise
/-!
# Which exceptions the readers raise
-/
set_option autoImplicit false

namespace Verif
open Spec

/-- An exception of an import, or one outside the model unless `t`. -/
def Kinds (t : Prop) (e : Exc) : Prop := e ∈ importErrors ∨ (e = .unmodelled ∧ ¬ t)

/-- The exception raised, if any, is one of these. -/
def Raises (t : Prop) {α : Type} (x : Except Exc α) : Prop := ∀ e, x = .error e → Kinds t e

section
variable {t : Prop} {α β : Type}

theorem Raises.ok (a : α) : Raises t (.ok a : Except Exc α) := fun _ h => by cases h

theorem Raises.pure (a : α) : Raises t (Pure.pure a : Except Exc α) := fun _ h => by cases h

theorem Raises.error {e : Exc} (h : e ∈ importErrors) : Raises t (.error e : Except Exc α) := fun _ h' => by
  cases h'; exact .inl h

theorem Raises.throw {e : Exc} (h : e ∈ importErrors) : Raises t (throw e : Except Exc α) := Raises.error h

theorem Raises.outside (h : ¬ t) : Raises t (.error .unmodelled : Except Exc α) := fun _ h' => by
  cases h'; exact .inr ⟨rfl, h⟩

theorem Raises.bind {x : Except Exc α} {f : α → Except Exc β} (hx : Raises t x)
    (hf : ∀ a, x = .ok a → Raises t (f a)) : Raises t (x >>= f) := by
  intro e h
  rcases bind_eq_error.1 h with h | ⟨a, h1, h2⟩
  · exact hx e h
  · exact hf a h1 e h2

theorem Raises.mapM {f : α → Except Exc β} : ∀ {l : List α}, (∀ a ∈ l, Raises t (f a)) → Raises t (l.mapM f)
  | [], _ => by rw [List.mapM_nil]; exact .ok _
  | a :: l, h => by
    rw [List.mapM_cons]
    exact .bind (h a (List.mem_cons_self ..)) (fun _ _ =>
      .bind (Raises.mapM (fun x hx => h x (List.mem_cons_of_mem _ hx))) (fun _ _ => .ok _))

theorem Raises.foldlM {f : β → α → Except Exc β} : ∀ {l : List α} (b : β), (∀ b, ∀ a ∈ l, Raises t (f b a)) →
    Raises t (l.foldlM f b)
  | [], _, _ => by rw [List.foldlM_nil]; exact .ok _
  | a :: l, b, h => by
    rw [List.foldlM_cons]
    exact .bind (h b a (List.mem_cons_self ..)) (fun c _ => Raises.foldlM c (fun c x hx => h c x (List.mem_cons_of_mem _ hx)))

end

/-! ## Ordinary data -/

/-- A keyword lookup with ordinary values. -/
def OrdinaryKw (g : Kw) : Prop := ∀ k v, g k = some v → OrdinaryAt k v ∧ Ordinary v

theorem ordinaryList_mem {v : Val} : ∀ {l : List Val}, OrdinaryList l → v ∈ l → Ordinary v
  | _ :: _, h, hv => by
    rcases List.mem_cons.1 hv with rfl | hv
    · exact h.1
    · exact ordinaryList_mem h.2 hv

theorem ordinaryDict_mem {p : String × Val} : ∀ {d : Dict}, OrdinaryDict d → p ∈ d → OrdinaryAt p.1 p.2 ∧ Ordinary p.2
  | _ :: _, h, hv => by
    rcases List.mem_cons.1 hv with rfl | hv
    · exact ⟨h.1, h.2.1⟩
    · exact ordinaryDict_mem h.2.2 hv

theorem ordinaryDict_of : ∀ {d : Dict}, (∀ p ∈ d, OrdinaryAt p.1 p.2 ∧ Ordinary p.2) → OrdinaryDict d
  | [], _ => trivial
  | _ :: _, h => ⟨(h _ (List.mem_cons_self ..)).1, (h _ (List.mem_cons_self ..)).2,
      ordinaryDict_of (fun p hp => h p (List.mem_cons_of_mem _ hp))⟩

theorem ordinaryDict_kw {d : Dict} (h : OrdinaryDict d) : OrdinaryKw (Dict.get? d) := fun _ _ hk =>
  ordinaryDict_mem h (mem_of_lookup hk)

theorem ordinary_kwargs {v : Val} {d : Dict} (h : Ordinary v) (hk : v.kwargs = .ok d) : OrdinaryDict d := by
  cases v with
  | dict x => cases hk; unfold Ordinary at h; exact h
  | _ => cases hk

theorem ordinary_asDict {v : Val} {d : Dict} (h : Ordinary v) (hk : v.asDict = .ok d) : OrdinaryDict d := by
  cases v with
  | dict x => cases hk; unfold Ordinary at h; exact h
  | _ => cases hk

theorem ordinary_subscript {v u : Val} {k : String} (h : Ordinary v) (hk : v.subscript k = .ok u) :
    OrdinaryAt k u ∧ Ordinary u := by
  cases v with
  | dict d =>
    unfold Val.subscript Dict.getItem at hk
    dsimp only at hk
    split at hk
    · rename_i x hx
      cases hk
      unfold Ordinary at h
      exact ordinaryDict_kw h _ _ hx
    · cases hk
  | _ => cases hk

theorem ordinary_iter {v u : Val} {l : List Val} (h : Ordinary v) (hk : v.iter = .ok l) (hu : u ∈ l) : Ordinary u := by
  cases v with
  | list x => cases hk; unfold Ordinary at h; exact ordinaryList_mem h hu
  | dict d =>
    cases hk
    obtain ⟨p, -, rfl⟩ := List.mem_map.1 hu
    unfold Ordinary; trivial
  | str s =>
    cases hk
    obtain ⟨p, -, rfl⟩ := List.mem_map.1 hu
    unfold Ordinary; trivial
  | _ => cases hk

theorem ordinary_none : Ordinary .none := by unfold Ordinary; trivial
theorem ordinary_nil : Ordinary (.list []) := by unfold Ordinary; exact trivial
theorem ordinary_empty : Ordinary (.dict []) := by unfold Ordinary; exact trivial

theorem OrdinaryKw.orNone {g : Kw} (h : OrdinaryKw g) (k : String) : Ordinary (g.orNone k) := by
  unfold Kw.orNone
  cases hg : g k with
  | none => exact ordinary_none
  | some v => exact (h k v hg).2

theorem OrdinaryKw.orD {g : Kw} (h : OrdinaryKw g) (k : String) {v : Val} (hv : Ordinary v) : Ordinary ((g k).getD v) := by
  cases hg : g k with
  | none => exact hv
  | some v => exact (h k v hg).2

theorem OrdinaryKw.text {g : Kw} (h : OrdinaryKw g) {k : String}
    (hk : k ∈ ["bar", "override_stack_size", "count", "circuit_id"]) : AsciiText (g.orNone k) := by
  unfold Kw.orNone
  cases hg : g k with
  | none => intro s hs; cases hs
  | some v => exact (h k v hg).1.count hk

/-! ## A check of ordinary data -/

def asciiB (v : Val) : Bool :=
  match v with
  | .str s => s.toList.all (fun c => c.toNat < 128)
  | _ => true

def ordinaryAtB (k : String) (v : Val) : Bool :=
  (!(k == "x" || k == "y") || match v with | .num _ => true | _ => false) &&
  (!(k == "entity_number") || match v with | .none => true | .num (.int _) => true | _ => false) &&
  (!(k == "position") || v != .none) &&
  (!(k == "strict") || v.truthy) &&
  (!(k == "direction" || k == "orientation") || match v with | .str s => !s.toList.contains '%' | _ => true) &&
  (!(["bar", "override_stack_size", "count", "circuit_id"].contains k) || asciiB v) &&
  (!(k == "playback_volume") || match v with | .str _ => false | _ => true) &&
  (!(k == "connections") || match v with | .dict d => d.all (fun p => p.1.toList.all (fun c => c.toNat < 128)) | _ => true)

mutual
def ordinaryB : Val → Bool
  | .list l => ordinaryListB l
  | .dict d => ordinaryDictB d
  | _ => true
def ordinaryListB : List Val → Bool
  | [] => true
  | v :: l => ordinaryB v && ordinaryListB l
def ordinaryDictB : List (String × Val) → Bool
  | [] => true
  | (k, v) :: d => ordinaryAtB k v && (ordinaryB v && ordinaryDictB d)
end

theorem ordinaryAt_of_check {k : String} {v : Val} (h : ordinaryAtB k v = true) : OrdinaryAt k v := by
  unfold ordinaryAtB at h
  simp only [Bool.and_eq_true, Bool.or_eq_true, Bool.not_eq_true', beq_eq_false_iff_ne, Bool.or_eq_false_iff] at h
  obtain ⟨⟨⟨⟨⟨⟨⟨h1, h2⟩, h3⟩, h4⟩, h5⟩, h6⟩, h7⟩, h8⟩ := h
  constructor
  · intro hk
    rcases h1 with h | h
    · rcases hk with rfl | rfl
      · exact absurd rfl h.1
      · exact absurd rfl h.2
    · split at h
      · exact ⟨_, rfl⟩
      · cases h
  · intro hk
    rcases h2 with h | h
    · exact absurd hk h
    · split at h
      · exact .inl rfl
      · exact .inr ⟨_, rfl⟩
      · cases h
  · intro hk
    rcases h3 with h | h
    · exact absurd hk h
    · simpa using h
  · intro hk
    rcases h4 with h | h
    · exact absurd hk h
    · exact h
  · intro hk s hs
    subst hs
    rcases h5 with h | h
    · rcases hk with rfl | rfl
      · exact absurd rfl h.1
      · exact absurd rfl h.2
    · simpa using h
  · intro hk s hs
    subst hs
    rcases h6 with h | h
    · rw [List.contains_iff_mem.2 hk] at h
      cases h
    · simpa [asciiB] using h
  · intro hk s hs
    subst hs
    rcases h7 with h | h
    · exact absurd hk h
    · cases h
  · intro hk d hd p hp c hc
    subst hd
    rcases h8 with h | h
    · exact absurd hk h
    · have := List.all_eq_true.1 (List.all_eq_true.1 h p hp) c hc
      exact of_decide_eq_true this

mutual
theorem ordinary_of_check : ∀ {v : Val}, ordinaryB v = true → Ordinary v
  | .list l, h => by unfold Ordinary; unfold ordinaryB at h; exact ordinaryList_of_check h
  | .dict d, h => by unfold Ordinary; unfold ordinaryB at h; exact ordinaryDict_of_check h
  | .none, _ => by unfold Ordinary; trivial
  | .bool _, _ => by unfold Ordinary; trivial
  | .num _, _ => by unfold Ordinary; trivial
  | .str _, _ => by unfold Ordinary; trivial
theorem ordinaryList_of_check : ∀ {l : List Val}, ordinaryListB l = true → OrdinaryList l
  | [], _ => trivial
  | v :: l, h => by
    unfold ordinaryListB at h
    rw [Bool.and_eq_true] at h
    exact ⟨ordinary_of_check h.1, ordinaryList_of_check h.2⟩
theorem ordinaryDict_of_check : ∀ {d : List (String × Val)}, ordinaryDictB d = true → OrdinaryDict d
  | [], _ => trivial
  | (k, v) :: d, h => by
    unfold ordinaryDictB at h
    rw [Bool.and_eq_true, Bool.and_eq_true] at h
    exact ⟨ordinaryAt_of_check h.1, ordinary_of_check h.2.1, ordinaryDict_of_check h.2.2⟩
end

/-! ## Readers of single values -/

section
variable {t : Prop}

theorem raises_kwargs (v : Val) : Raises t v.kwargs := by
  cases v <;> first | exact .ok _ | exact .error (by decide)

theorem raises_asDict (v : Val) : Raises t v.asDict := by
  cases v <;> first | exact .ok _ | exact .error (by decide)

theorem raises_asPopDict (v : Val) : Raises t v.asPopDict := by
  cases v <;> first | exact .ok _ | exact .error (by decide)

theorem raises_iter (v : Val) : Raises t v.iter := by
  cases v <;> first | exact .ok _ | exact .error (by decide)

theorem raises_getItem (d : Dict) (k : String) : Raises t (Dict.getItem d k) := by
  unfold Dict.getItem
  split
  · exact .ok _
  · exact .error (by decide)

theorem raises_subscript (v : Val) (k : String) : Raises t (v.subscript k) := by
  cases v <;> first | exact raises_getItem _ _ | exact .error (by decide)

theorem raises_inTable (d : Dict) (v : Val) : Raises t (inTable d v) := by
  unfold inTable
  split
  · exact .ok _
  · split
    · exact .ok _
    · exact .error (by decide)

theorem raises_signalSet (env : Env) (v : Val) : Raises t (signalSet env v) := by
  have h : ∀ u : Val, Raises t (if u.truthy then do
      if ← inTable env.signals u then .ok u else .error .unknownSignal
    else .ok u : Except Exc Val) := by
    intro u
    split
    · refine .bind (raises_inTable _ _) (fun b _ => ?_)
      split
      · exact .ok _
      · exact .error (by decide)
    · exact .ok _
  unfold signalSet
  split
  · exact .ok _
  · exact h _

theorem raises_operatorSet (os : List String) (v : Val) : Raises t (operatorSet os v) := by
  unfold operatorSet
  split
  · exact .ok _
  · split
    · exact .ok _
    · exact .error (by decide)
  · exact .error (by decide)

theorem raises_nameStr (env : Env) (v : Val) : Raises t (nameStr env v) := by
  unfold nameStr
  split
  · exact .ok _
  · split
    · exact .ok _
    · exact .error (by decide)
  · split <;> exact .error (by decide)

theorem raises_recipeSet (env : Env) (s : Bool) (v : Val) : Raises t (recipeSet env s v) := by
  unfold recipeSet
  split
  · exact .ok _
  · split
    · exact .ok _
    · refine .bind (raises_inTable _ _) (fun b _ => ?_)
      split
      · exact .ok _
      · exact .error (by decide)

theorem raises_component (v : Val) : Raises t (Color.component v) := by
  unfold Color.component
  split
  · exact .ok _
  · exact .error (by decide)

theorem raises_color (v : Val) : Raises t (Color.ofVal v) := by
  unfold Color.ofVal
  refine .bind (raises_kwargs v) (fun d _ => ?_)
  unfold Color.ofKwargs
  split
  · exact .error (by decide)
  · exact .bind (raises_component _) fun _ _ => .bind (raises_component _) fun _ _ =>
      .bind (raises_component _) fun _ _ => .bind (raises_component _) fun _ _ => .ok _

theorem raises_pyInt {v : Val} (h : t → AsciiText v) : Raises t (pyInt v) := by
  unfold pyInt
  split
  · exact .ok _
  · exact .ok _
  · rename_i s
    unfold pyIntStr
    split
    · split
      · exact .ok _
      · exact .error (by decide)
    · rename_i hc
      refine .outside (fun ht => hc ?_)
      rw [List.all_eq_true]
      exact fun c hm => decide_eq_true (h ht s rfl c hm)
  · exact .error (by decide)

theorem raises_pyFloat {v : Val} (h : t → ∀ s, v ≠ .str s) : Raises t (pyFloat v) := by
  unfold pyFloat
  split
  · split
    · exact .ok _
    · exact .error (by decide)
  · exact .ok _
  · exact .ok _
  · rename_i s
    intro e he
    by_cases ht : t
    · exact absurd rfl (h ht s)
    · unfold pyFloatStr at he
      split at he
      · split at he
        · split at he
          · cases he
          · cases he; exact .inr ⟨rfl, ht⟩
        · split at he
          · cases he; exact .inr ⟨rfl, ht⟩
          · cases he; exact .inl (by decide)
      · cases he; exact .inr ⟨rfl, ht⟩
  · exact .error (by decide)

theorem raises_strMod {α : Type} {s : String} (h : t → '%' ∉ s.toList) : Raises t (.error (Direction.strMod s) : Except Exc α) := by
  unfold Direction.strMod
  split
  · rename_i hc
    exact .outside (fun ht => h ht (by simpa using hc))
  · exact .error (by decide)

theorem raises_mod {a b : Num} (hb : b.val ≠ 0) : Raises t (a.mod b) := by
  unfold Num.mod
  rw [if_neg hb]
  split <;> exact .ok _

theorem raises_direction {v : Val} (h : t → ∀ s, v = .str s → '%' ∉ s.toList) : Raises t (Direction.ofVal v) := by
  unfold Direction.ofVal
  split
  · exact .ok _
  · split
    · exact .ok _
    · rename_i e he
      exact fun x hx => by
        cases hx
        exact raises_mod (b := .int 8) (by decide) _ he
  · exact .ok _
  · rename_i s
    exact raises_strMod (fun ht => h ht s rfl)
  · exact .error (by decide)

theorem raises_orientation {v : Val} (h : t → ∀ s, v = .str s → '%' ∉ s.toList) : Raises t (orientationSet v) := by
  unfold orientationSet
  split
  · exact .ok _
  · rename_i s
    exact raises_strMod (fun ht => h ht s rfl)
  · split
    · exact .bind (raises_mod (by decide)) fun _ _ => .ok _
    · exact .error (by decide)

theorem raises_coord {v : Val} (h : t → ∃ n, v = .num n) : Raises t (Vec.coord v) := by
  unfold Vec.coord
  split
  · exact .ok _
  · rename_i hn
    exact .outside (fun ht => by obtain ⟨n, rfl⟩ := h ht; exact hn n rfl)

theorem raises_vec {v : Val} (h : t → Ordinary v) : Raises t (Vec.ofVal v) := by
  cases v with
  | none => exact .ok _
  | dict d =>
    show Raises t (Vec.new (.dict d))
    unfold Vec.new
    have hk : ∀ k u, Dict.getItem d k = .ok u → t → OrdinaryAt k u := fun k u hu ht =>
      (ordinary_subscript (v := .dict d) (h ht) hu).1
    exact .bind (raises_getItem _ _) fun x hx => .bind (raises_coord fun ht => (hk _ _ hx ht).coord (.inl rfl)) fun _ _ =>
      .bind (raises_getItem _ _) fun y hy => .bind (raises_coord fun ht => (hk _ _ hy ht).coord (.inr rfl)) fun _ _ => .ok _
  | _ => exact .error (by decide)

/-! ## Mixins -/

theorem ordinaryAt_getD {d : Dict} (h : OrdinaryDict d) (k : String) {v : Val} (hv : Ordinary v) :
    Ordinary (Dict.getD d k v) :=
  (ordinaryDict_kw h).orD k hv

theorem ordinary_iterOrNone {v u : Val} {l : List Val} (h : Ordinary v) (hk : iterOrNone v = .ok l) (hu : u ∈ l) :
    Ordinary u := by
  unfold iterOrNone at hk
  split at hk
  · cases hk; cases hu
  · exact ordinary_iter h hk hu

theorem raises_iterOrNone (v : Val) : Raises t (iterOrNone v) := by
  unfold iterOrNone
  split
  · exact .ok _
  · exact raises_iter _

/-- A test that raises, and then the rest. -/
theorem Raises.guard {α : Type} {c : Prop} [Decidable c] {e : Exc} {x : Except Exc α} (he : e ∈ importErrors)
    (hx : Raises t x) : Raises t (if c then MonadExcept.throw e else x) := by
  split
  · exact .error he
  · exact hx

theorem raises_items (env : Env) (v : Val) : Raises t (readItems env v) := by
  unfold readItems
  refine .bind (raises_asDict _) fun d _ => .bind (.mapM fun p _ => ?_) fun _ _ => .ok _
  refine .bind (raises_signalSet _ _) fun s hs => ?_
  have : ∃ z, signalGet s = .str z := by
    unfold signalSet at hs
    dsimp only at hs
    split at hs
    · obtain ⟨b, -, h2⟩ := bind_eq_ok.1 hs
      split at h2
      · cases h2; exact ⟨_, rfl⟩
      · cases h2
    · cases hs; exact ⟨_, rfl⟩
  obtain ⟨z, hz⟩ := this
  rw [hz]
  exact .ok _

theorem raises_cargo (env : Env) (v : Val) : Raises t (readCargo env v) := by
  unfold readCargo
  split
  · exact .ok _
  · refine .bind (raises_asDict _) fun d _ => .bind (raises_iter _) fun fs _ => .bind (.foldlM _ fun acc f _ => ?_) fun _ _ => .ok _
    refine .bind (raises_subscript _ _) fun _ _ => .bind (raises_nameStr _ _) fun _ _ => .bind (raises_subscript _ _) fun i _ => ?_
    cases i.hashable
    · exact .error (by decide)
    · exact .ok _

theorem raises_vector {v : Val} (h : t → Ordinary v) : Raises t (readVector v) := by
  unfold readVector
  refine .bind (raises_vec h) fun p _ => ?_
  cases p <;> exact .ok _

theorem raises_readColor (v : Val) : Raises t (readColor v) := by
  unfold readColor
  split
  · exact .ok _
  · exact .bind (raises_color _) fun _ _ => .ok _

theorem raises_intOrNone {v : Val} (h : t → AsciiText v) : Raises t (readIntOrNone v) := by
  unfold readIntOrNone
  split
  · exact .ok _
  · exact .bind (raises_pyInt h) fun _ _ => .ok _

theorem raises_insFilter (env : Env) (f : Val) : Raises t (readInsFilter env f) := by
  unfold readInsFilter
  refine .bind (raises_kwargs _) fun d _ => .guard (by decide) (.bind (raises_signalSet _ _) fun _ _ => ?_)
  exact .guard (by decide) (.ok _)

theorem raises_choice (os : List String) (v : Val) : Raises t (readChoice os v) := by
  unfold readChoice
  split
  · exact .ok _
  · split
    · exact .ok _
    · exact .error (by decide)
  · exact .error (by decide)

theorem raises_infinity (env : Env) (v : Val) : Raises t (readInfinity env v) := by
  unfold readInfinity
  refine .bind (raises_subscript _ _) fun _ _ => .bind (raises_subscript _ _) fun _ _ => .bind (raises_iterOrNone _) fun fs _ =>
    .bind (.foldlM _ fun acc f _ => ?_) fun _ _ => .ok _
  refine .bind (raises_subscript _ _) fun m _ => .guard (by decide) (.bind (raises_subscript _ _) fun _ _ =>
    .bind (raises_subscript _ _) fun _ _ => .bind (raises_nameStr _ _) fun _ _ => .bind (raises_subscript _ _) fun i _ => ?_)
  cases i.hashable
  · exact .error (by decide)
  · exact .ok _

theorem raises_requests (env : Env) {v : Val} (h : t → Ordinary v) : Raises t (readRequestFilters env v) := by
  unfold readRequestFilters
  refine .bind (raises_iterOrNone _) fun fs hfs => .bind (.foldlM _ fun acc f hf => ?_) fun _ _ => .ok _
  refine .bind (raises_subscript _ _) fun _ _ => .bind (raises_nameStr _ _) fun _ _ => .bind (raises_subscript _ _) fun c hc => ?_
  refine .bind (raises_pyInt fun ht => ?_) fun _ _ => .bind (raises_subscript _ _) fun i _ => ?_
  · exact (ordinary_subscript (ordinary_iterOrNone (h ht) hfs hf) hc).1.count (by decide)
  · cases i.hashable
    · exact .error (by decide)
    · exact .ok _

theorem raises_autoLaunch (v : Val) : Raises t (readAutoLaunch v) := by
  unfold readAutoLaunch
  split
  · exact .ok _
  · split
    · split
      · exact .ok _
      · exact .error (by decide)
    · exact .error (by decide)

theorem raises_parameters {v : Val} (h : t → Ordinary v) : Raises t (readParameters v) := by
  unfold readParameters
  split
  · exact .ok _
  · refine .bind (raises_subscript _ _) fun u hu => .bind (raises_pyFloat fun ht => ?_) fun _ _ =>
      .bind (raises_subscript _ _) fun _ _ => .bind (raises_subscript _ _) fun _ _ => .ok _
    exact (ordinary_subscript (h ht) hu).1.volume rfl

theorem raises_alert (env : Env) (v : Val) : Raises t (readAlert env v) := by
  unfold readAlert
  split
  · exact .ok _
  · exact .bind (raises_subscript _ _) fun _ _ => .bind (raises_subscript _ _) fun _ _ => .bind (raises_asDict _) fun _ _ =>
      .bind (raises_asDict _) fun _ _ => .bind (raises_nameStr _ _) fun _ _ => .bind (raises_subscript _ _) fun _ _ => .ok _

theorem raises_variation (v : Val) : Raises t (readVariation v) := by
  unfold readVariation
  split
  · split
    · exact .error (by decide)
    · exact .ok _
  · exact .error (by decide)

theorem raises_mx (env : Env) (strict shadowed : Bool) (m : Mx) {g : Kw} (h : t → OrdinaryKw g)
    (hs : t → .FilterInserter = m → shadowed = false) : Raises t (mxRead env strict shadowed m g) := by
  cases m with
  | Items => exact raises_items _ _
  | Train =>
    refine .bind (raises_orientation fun ht s hv => ?_) fun _ _ => .ok _
    unfold Kw.orNone at hv
    cases hg : g "orientation" with
    | none => rw [hg] at hv; cases hv
    | some v => rw [hg] at hv; exact (h ht _ _ hg).1.turn (.inr rfl) s hv
  | Cargo => exact raises_cargo _ _
  | Color => exact .bind (raises_readColor _) fun _ _ => .ok _
  | Container => exact .bind (raises_intOrNone fun ht => (h ht).text (by decide)) fun _ _ => .ok _
  | Inserter =>
    exact .bind (raises_intOrNone fun ht => (h ht).text (by decide)) fun _ _ =>
      .bind (raises_vector fun ht => (h ht).orNone _) fun _ _ => .bind (raises_vector fun ht => (h ht).orNone _) fun _ _ => .ok _
  | FilterInserter =>
    refine .bind (raises_iterOrNone _) fun fs _ => ?_
    have hr : Raises t (do
      let l ← fs.mapM (readInsFilter env)
      let mode ← readChoice ["whitelist", "blacklist"] (g.orNone "filter_mode")
      return [("filters", Val.list l), ("filter_mode", mode)] : Except Exc Attrs) :=
      .bind (.mapM fun _ _ => raises_insFilter _ _) fun _ _ => .bind (raises_choice _ _) fun _ _ => .ok _
    dsimp only
    split
    · rename_i hc
      exact .outside fun ht => by rw [hs ht rfl] at hc; cases hc
    · exact hr
  | InfinityContainer => exact raises_infinity _ _
  | Recipe => exact .bind (raises_recipeSet _ _ _) fun _ _ => .ok _
  | Requester => exact .bind (raises_requests _ fun ht => (h ht).orNone _) fun _ _ => .ok _
  | Silo => exact .bind (raises_autoLaunch _) fun _ _ => .ok _
  | Speaker =>
    exact .bind (raises_parameters fun ht => (h ht).orNone _) fun _ _ => .bind (raises_alert _ _) fun _ _ => .ok _
  | Splitter =>
    exact .bind (raises_choice _ _) fun _ _ => .bind (raises_choice _ _) fun _ _ => .bind (raises_nameStr _ _) fun _ _ => .ok _
  | Underground =>
    unfold mxRead
    dsimp only
    split
    · exact .error (by decide)
    · split
      · exact .ok _
      · exact .error (by decide)
    · exact .error (by decide)
  | Variation => exact .bind (raises_variation _) fun _ _ => .ok _
  | _ => exact .ok _

theorem ordinary_erase {d : Dict} (h : OrdinaryDict d) (ks : List String) : OrdinaryDict (eraseKeys d ks) :=
  ordinaryDict_of fun _ hp => ordinaryDict_mem h (List.mem_filter.1 hp).1

theorem raises_chain (env : Env) (strict shadowed : Bool) {lo : Exc} (hlo : lo ∈ importErrors) :
    ∀ (ms : List Mx) (args : Bool) (kw : Dict) (a : Attrs), (t → OrdinaryDict kw) →
    (t → .FilterInserter ∈ ms → shadowed = false) → Raises t (initChain env strict shadowed lo ms args kw a)
  | [], args, kw, a, _, _ => by
    unfold initChain
    split
    · exact .error hlo
    · exact .ok _
  | m :: ms, args, kw, a, h, hs => by
    unfold initChain
    have hr := raises_mx env strict shadowed m (g := Dict.get? kw) (fun ht => ordinaryDict_kw (h ht))
      (fun ht hm => hs ht (hm ▸ List.mem_cons_self ..))
    have hs' : t → .FilterInserter ∈ ms → shadowed = false := fun ht hm => hs ht (List.mem_cons_of_mem _ hm)
    cases hm : mxRead env strict shadowed m (Dict.get? kw) with
    | error e => exact fun x hx => by cases hx; exact hr _ hm
    | ok w =>
      dsimp only
      split
      · exact raises_chain env strict shadowed hlo ms _ _ _ (fun _ => trivial) hs'
      · exact raises_chain env strict shadowed hlo ms _ _ _ (fun ht => ordinary_erase (h ht) _) hs'

/-! ## Control behaviours -/

theorem raises_filter (env : Env) (f : Val) : Raises t (readFilter env f) := by
  unfold readFilter
  refine .bind (raises_kwargs _) fun d _ => .guard (by decide) (.bind (raises_signalSet _ _) fun _ _ => ?_)
  exact .guard (by decide) (.ok _)

theorem raises_circuitParameters (v : Val) : Raises t (readCircuitParameters v) := by
  unfold readCircuitParameters
  exact .bind (raises_kwargs _) fun d _ => .guard (by decide) (.ok _)

theorem raises_cb (env : Env) (ctx : CbCtx) (m : Mx) (g : Kw) (hs : t → .Filters = m → ctx.filtersShadowed = false) :
    Raises t (cbRead env ctx m g) := by
  cases m with
  | Accumulator => exact .bind (raises_signalSet _ _) fun _ _ => .ok _
  | Filters =>
    refine .bind (raises_iter _) fun fs _ => ?_
    have hr : Raises t (do return [("filters", Val.list (← fs.mapM (readFilter env)))] : Except Exc Attrs) :=
      .bind (.mapM fun _ _ => raises_filter _ _) fun _ _ => .ok _
    dsimp only
    split
    · rename_i hc
      exact .outside fun ht => by rw [hs ht rfl] at hc; cases hc
    · exact hr
  | TrainSignal =>
    exact .bind (raises_signalSet _ _) fun _ _ => .bind (raises_signalSet _ _) fun _ _ => .bind (raises_signalSet _ _) fun _ _ => .ok _
  | ChainSignal => exact .bind (raises_signalSet _ _) fun _ _ => .ok _
  | CircuitCondition =>
    unfold cbRead
    dsimp only
    split
    · exact .ok _
    · exact .bind (raises_asDict _) fun _ _ => .bind (raises_signalSet _ _) fun _ _ => .bind (raises_signalSet _ _) fun _ _ =>
        .bind (raises_operatorSet _ _) fun _ _ => .ok _
  | Inserter => exact .bind (raises_signalSet _ _) fun _ _ => .ok _
  | Roboport =>
    exact .bind (raises_signalSet _ _) fun _ _ => .bind (raises_signalSet _ _) fun _ _ => .bind (raises_signalSet _ _) fun _ _ =>
      .bind (raises_signalSet _ _) fun _ _ => .ok _
  | Speaker => exact .bind (raises_circuitParameters _) fun _ _ => .ok _
  | Station => exact .bind (raises_signalSet _ _) fun _ _ => .ok _
  | _ => exact .ok _

theorem raises_getFrom (ctx : CbCtx) (d : Dict) (key : String) : Raises t (getFrom ctx d key).1 := by
  unfold getFrom
  dsimp only
  split
  · split
    · exact .ok _
    · exact raises_subscript _ _
  · exact .ok _

theorem raises_combinatorBody (env : Env) (ctx : CbCtx) (cond : Dict) : Raises t (combinatorBody env ctx cond).1 := by
  unfold combinatorBody
  split
  · exact .error (by decide)
  · dsimp only
    split
    · rename_i x hx
      intro e he
      cases he
      split at hx
      · exact raises_operatorSet _ _ _ hx
      · cases hx
    · split
      · rename_i x y hx
        exact fun e he => by cases he; exact raises_getFrom _ _ _ _ (congrArg Prod.fst hx)
      · split
        · rename_i hx
          exact fun e he => by cases he; exact raises_signalSet _ _ _ hx
        · split
          · rename_i hx
            exact fun e he => by cases he; exact raises_getFrom _ _ _ _ (congrArg Prod.fst hx)
          · split
            · rename_i hx
              exact fun e he => by cases he; exact raises_signalSet _ _ _ hx
            · split
              · rename_i hx
                exact fun e he => by cases he; exact raises_getFrom _ _ _ _ (congrArg Prod.fst hx)
              · split
                · rename_i hx
                  exact fun e he => by cases he; exact raises_signalSet _ _ _ hx
                · exact .ok _

theorem raises_combinator (env : Env) (ctx : CbCtx) (kw : Dict) : Raises t (combinatorInit env ctx kw) := by
  unfold combinatorInit
  refine .bind (raises_asPopDict _) fun cond _ => ?_
  have h := raises_combinatorBody (t := t) env ctx cond
  dsimp only
  split
  · rename_i hx
    exact fun e he => by cases he; exact h _ (congrArg Prod.fst hx)
  · exact .ok _

theorem raises_decider (ctx : CbCtx) (kw : Dict) : Raises t (deciderInit ctx kw) := by
  unfold deciderInit
  exact .bind (raises_getItem _ _) fun _ _ => .bind (raises_asPopDict _) fun _ _ => .ok _

theorem raises_cbInit (env : Env) (ctx : CbCtx) (m : Mx) (kw : Dict) (hs : t → .Filters = m → ctx.filtersShadowed = false) :
    Raises t (cbInit env ctx m kw) := by
  unfold cbInit
  split
  · exact raises_combinator _ _ _
  · exact raises_decider _ _
  · exact .bind (raises_cb _ _ _ _ hs) fun _ _ => .ok _

theorem raises_cbChain (env : Env) (ctx : CbCtx) {lo : Exc} (hlo : lo ∈ importErrors) :
    ∀ (ms : List Mx) (kw : Dict) (a : Attrs), (t → .Filters ∈ ms → ctx.filtersShadowed = false) →
    Raises t (cbInitChain env ctx lo ms kw a)
  | [], kw, a, _ => by
    unfold cbInitChain
    split
    · exact .ok _
    · exact .error hlo
  | m :: ms, kw, a, hs => by
    unfold cbInitChain
    have hr := raises_cbInit env ctx m kw (fun ht hm => hs ht (hm ▸ List.mem_cons_self ..))
    cases hm : cbInit env ctx m kw with
    | error e => exact fun x hx => by cases hx; exact hr _ hm
    | ok p =>
      dsimp only
      split
      · exact .ok _
      · exact raises_cbChain env ctx hlo ms _ _ (fun ht hm => hs ht (List.mem_cons_of_mem _ hm))

theorem raises_cbNew (env : Env) {lo : Exc} (hlo : lo ∈ importErrors) (k : Klass) (v : Val)
    (hs : t → .Filters ∈ k.cbChain → k.ctx.filtersShadowed = false) : Raises t (Cb.new env lo k v) := by
  unfold Cb.new
  exact .bind (raises_kwargs _) fun _ _ => .guard (by decide) (.bind (raises_cbChain _ _ hlo _ _ _ hs) fun _ _ => .ok _)

/-! ## Classes -/

theorem raises_merge {α : Type} [DecidableEq α] : ∀ (n : Nat) (l : List (List α)), Raises t (C3.mergeAux n l)
  | 0, _ => .ok _
  | n + 1, l => by
    unfold C3.mergeAux
    dsimp only
    split
    · exact .ok _
    · split
      · exact .error (by decide)
      · split
        · exact .ok _
        · rename_i hx
          exact fun e he => by cases he; exact raises_merge n _ _ hx

theorem raises_linearize {α : Type} [DecidableEq α] (c : α) (bs : List α) (l : List (List α)) :
    Raises t (C3.linearize c bs l) := by
  unfold C3.linearize
  split
  · split
    · exact .ok _
    · rename_i hx
      exact fun e he => by cases he; exact raises_merge _ _ _ hx
  · exact .error (by decide)

theorem raises_klass (c : Cls) (inner : Bool) (bs : List Klass) : Raises t (Klass.make c inner bs) := by
  unfold Klass.make
  exact .bind (raises_linearize _ _ _) fun _ _ => .bind (raises_linearize _ _ _) fun _ _ => .ok _

theorem raises_ofMx : ∀ (n : Nat) (m : Mx), Raises t (Klass.ofMxAux n m)
  | 0, _ => .error (by decide)
  | n + 1, m => by
    unfold Klass.ofMxAux
    dsimp only
    split
    · exact .bind (.ok _) fun _ _ => raises_klass _ _ _
    · exact .bind (raises_ofMx n _) fun _ _ => raises_klass _ _ _

theorem raises_extend (n : Nat) (k : Klass) (ms : List Mx) : Raises t (Klass.extend n k ms) := by
  unfold Klass.extend
  exact .bind (.mapM fun _ _ => raises_ofMx _ _) fun _ _ => raises_klass _ _ _

/-! ## Entities -/

theorem raises_protoType (env : Env) (n : String) : Raises t (protoType env n) := by
  unfold protoType
  exact .bind (raises_getItem _ _) fun _ _ => raises_subscript _ _

theorem leftover_mem (env : Env) (n : String) : leftoverExc env n ∈ importErrors := by
  unfold leftoverExc
  split
  · decide
  · rename_i hx
    rcases raises_protoType (t := True) env n _ hx with h | h
    · exact h
    · exact absurd trivial h.2

theorem raises_mixinsFor (c : Option Custom) (v : Val) : Raises t (mixinsFor c v) := by
  unfold mixinsFor
  split
  · split
    · exact .error (by decide)
    · exact .ok _
  · split <;> exact .error (by decide)

/-- No other class of filters comes first. -/
def Unshadowed (k : Klass) : Prop :=
  (.FilterInserter ∈ k.chain → k.insFiltersShadowed = false) ∧ (.Filters ∈ k.cbChain → k.ctx.filtersShadowed = false)

instance (k : Klass) : Decidable (Unshadowed k) := by unfold Unshadowed; infer_instance

theorem rows_unshadowed : ∀ p ∈ entityPrototypes, ∀ k, Klass.extend 0 Klass.entity p.2 = .ok k → Unshadowed k := by
  have h : (entityPrototypes.all fun p => match Klass.extend 0 Klass.entity p.2 with
    | .ok k => decide (Unshadowed k) | .error _ => true) = true := by decide +kernel
  intro p hp k hk
  have := List.all_eq_true.1 h p hp
  rw [hk] at this
  exact of_decide_eq_true this

theorem mixinsFor_none {c : Option Custom} (hc : c.getD [] = []) {v : Val} {ms : List Mx} (h : mixinsFor c v = .ok ms) :
    ∃ ty, prototypeMixins ty = some ms := by
  unfold mixinsFor at h
  split at h
  · split at h
    · cases h
    · rename_i ty _ ms' hm
      rw [hc] at h
      cases h
      exact ⟨ty, hm⟩
  · split at h <;> cases h

theorem raises_setName (env : Env) (c : Option Custom) (e : Entity) (v : Val) (hs : t → e.strict = true) :
    Raises t (Entity.setName env c e v).1 := by
  unfold Entity.setName
  split
  · rename_i h
    split
    · exact .ok _
    · exact .outside fun ht => by rw [hs ht] at h; cases h
  · split
    · split
      · exact .error (by decide)
      · dsimp only
        split
        · rename_i hx
          exact fun x he => by cases he; exact raises_subscript _ _ _ hx
        · split
          · rename_i hx
            exact fun x he => by cases he; exact raises_mixinsFor _ _ _ hx
          · split
            · rename_i hx
              exact fun x he => by cases he; exact raises_extend _ _ _ _ hx
            · exact .ok _
    · split <;> exact .error (by decide)

theorem setName_unshadowed {env : Env} {c : Option Custom} (hc : c.getD [] = []) {e e' : Entity} {v : Val}
    (hk : e.klass = Klass.entity) (hd : e.depth = 0) (h : Entity.setName env c e v = (.ok (), e')) : Unshadowed e'.klass := by
  unfold Entity.setName at h
  split at h
  · split at h
    · cases h
      rw [hk]
      decide +kernel
    · cases h
  · split at h
    · split at h
      · cases h
      · dsimp only at h
        split at h
        · cases h
        · split at h
          · cases h
          · rename_i ms hms
            split at h
            · cases h
            · rename_i k hx
              cases h
              obtain ⟨ty, hty⟩ := mixinsFor_none hc hms
              rw [hk, hd] at hx
              exact rows_unshadowed (ty, ms) (mem_of_lookup hty) _ hx
    · cases h

theorem raises_numberOf {v : Val} (h : t → v = .none ∨ ∃ z, v = .int z) : Raises t (Entity.numberOf v) := by
  unfold Entity.numberOf
  split
  · exact .ok _
  · exact .ok _
  · rename_i h1 h2
    exact .outside fun ht => by
      rcases h ht with rfl | ⟨z, rfl⟩
      · exact h1 rfl
      · exact h2 z rfl

theorem raises_pos {v : Val} (h : t → Ordinary v ∧ v ≠ .none) : Raises t (Entity.posOf v) := by
  unfold Entity.posOf
  refine .bind (raises_vec fun ht => (h ht).1) fun p hp => ?_
  cases p with
  | some p => exact .ok _
  | none =>
    refine .outside fun ht => (h ht).2 ?_
    cases v with
    | none => rfl
    | dict d =>
      exfalso
      have hp : Vec.new (.dict d) = .ok none := hp
      unfold Vec.new at hp
      obtain ⟨_, _, hp⟩ := bind_eq_ok.1 hp
      obtain ⟨_, _, hp⟩ := bind_eq_ok.1 hp
      obtain ⟨_, _, hp⟩ := bind_eq_ok.1 hp
      obtain ⟨_, _, hp⟩ := bind_eq_ok.1 hp
      cases hp
    | _ => cases hp

theorem raises_finish (env : Env) (e : Entity) (pos : Val) (kw : Dict) (hp : t → Ordinary pos ∧ pos ≠ .none)
    (hk : t → OrdinaryDict kw) (hs : t → Unshadowed e.klass) : Raises t (Entity.finish env e pos kw) := by
  unfold Entity.finish
  refine .bind (raises_pos hp) fun _ _ => .bind (raises_direction fun ht s hv => ?_) fun _ _ => .bind ?_ fun _ _ =>
    .bind (raises_chain _ _ _ (leftover_mem _ _) _ _ _ _ (fun ht => ordinary_erase (hk ht) _) fun ht => (hs ht).1) fun _ _ => .ok _
  · unfold Dict.getD at hv
    cases hg : Dict.get? kw "direction" with
    | none => rw [hg] at hv; cases hv
    | some v => rw [hg] at hv; exact (ordinaryDict_kw (hk ht) _ _ hg).1.turn (.inl rfl) s hv
  · unfold Entity.cbOf
    split
    · exact .bind (raises_cbNew _ (leftover_mem _ _) _ _ fun ht => (hs ht).2) fun _ _ => .ok _
    · exact .ok _

theorem raises_entity (env : Env) {c : Option Custom} (l : Option BpId) {kw : Dict} (hk : t → OrdinaryDict kw)
    (hc : t → c.getD [] = []) : Raises t (Entity.new env c l kw) := by
  unfold Entity.new
  split
  · exact .error (by decide)
  · split
    · rename_i nm ps hn hp
      have h1 : t → Dict.getD kw "entity_number" .none = .none ∨ ∃ z, Dict.getD kw "entity_number" .none = .int z := fun ht => by
        unfold Dict.getD
        cases hg : Dict.get? kw "entity_number" with
        | none => exact .inl rfl
        | some v => exact (ordinaryDict_kw (hk ht) _ _ hg).1.number rfl
      split
      · rename_i hx
        exact fun x he => by cases he; exact raises_numberOf h1 _ hx
      · rename_i n hn'
        split
        · rename_i hx
          refine fun x he => by
            cases he
            refine raises_setName env c _ nm (fun ht => ?_) _ (congrArg Prod.fst hx)
            show (Dict.getD kw "strict" (.bool true)).truthy = true
            unfold Dict.getD
            cases hg : Dict.get? kw "strict" with
            | none => rfl
            | some v => exact (ordinaryDict_kw (hk ht) _ _ hg).1.strict rfl
        · rename_i hx
          refine raises_finish _ _ _ _ (fun ht => ?_) hk fun ht => setName_unshadowed (hc ht) rfl rfl hx
          have := ordinaryDict_kw (hk ht) _ _ hp
          exact ⟨this.2, this.1.place rfl⟩
    · exact .error (by decide)

/-! ## Tiles, schedules, icons -/

theorem raises_tileName (ts : List String) (v : Val) : Raises t (Tile.setName ts v) := by
  unfold Tile.setName
  split
  · split
    · exact .ok _
    · exact .error (by decide)
  · split <;> exact .error (by decide)

theorem raises_schedule (w : World) (b : BpId) (v : Val) : Raises t (scheduleNew w b v) := by
  unfold scheduleNew
  refine .bind (raises_kwargs _) fun _ _ => .guard (by decide) ?_
  split
  · exact .bind (raises_iter _) fun _ _ => .ok _
  · exact .error (by decide)

theorem raises_iconIndex (v : Val) : Raises t (iconIndex v) := by
  unfold iconIndex
  split
  · exact .ok _
  · exact .ok _
  · exact .error (by decide)

theorem raises_setPy {α : Type} (l : List α) (i : Int) (x : α) : Raises t (setPy l i x) := by
  unfold setPy
  split
  · exact .ok _
  · split
    · exact .ok _
    · exact .error (by decide)

theorem raises_unwrap (v : Val) : Raises t (unwrapData v) := by
  unfold unwrapData
  split
  · split
    · exact raises_asDict _
    · exact .ok _
  · split <;> exact .error (by decide)
  · split <;> exact .error (by decide)
  · exact .error (by decide)

theorem ordinary_unwrap {v : Val} {d : Dict} (h : Ordinary v) (hd : unwrapData v = .ok d) : OrdinaryDict d := by
  unfold unwrapData at hd
  split at hd
  · unfold Ordinary at h
    split at hd
    · rename_i hg
      exact ordinary_asDict (ordinaryDict_kw h _ _ hg).2 hd
    · cases hd; exact h
  · split at hd <;> cases hd
  · split at hd <;> cases hd
  · cases hd

theorem raises_conn (f u : Option Ref) {a c : Val} (color : String) (ha : t → AsciiText a) (hc : t → AsciiText c) :
    Raises t (Conn.new f u a c color) := by
  unfold Conn.new
  exact .bind (raises_pyInt ha) fun _ _ => .bind (raises_pyInt hc) fun _ _ => .ok _

end

end Verif
