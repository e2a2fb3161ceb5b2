import Verif.Model.Control
import Verif.Proofs.Except
/-!
# Helper lemmas: dictionaries
-/
set_option autoImplicit false

namespace Verif

theorem lookup_set (d : Dict) (k k' : String) (v : Val) :
    List.lookup k' (Dict.set d k v) = if k' = k then some v else List.lookup k' d := by
  induction d with
  | nil =>
    simp only [Dict.set, List.lookup_cons, List.lookup_nil]
    by_cases h : k' = k
    · simp [h]
    · have : (k' == k) = false := by simpa using h
      simp [h, this]
  | cons p d ih =>
    obtain ⟨l, w⟩ := p
    unfold Dict.set
    split
    · rename_i h
      subst h
      simp only [List.lookup_cons]
      by_cases h : k' = l
      · simp [h]
      · have : (k' == l) = false := by simpa using h
        simp [h, this]
    · rename_i h
      simp only [List.lookup_cons, ih]
      by_cases h' : k' = l
      · subst h'; simp [h]
      · have : (k' == l) = false := by simpa using h'
        simp [this]

theorem mem_keys_iff {d : Dict} {k : String} : k ∈ d.map (·.1) ↔ List.lookup k d ≠ none := by
  induction d with
  | nil => simp
  | cons p d ih =>
    obtain ⟨l, w⟩ := p
    simp only [List.map_cons, List.mem_cons, List.lookup_cons, ih]
    by_cases h : k = l
    · simp [h]
    · have : (k == l) = false := by simpa using h
      simp [h, this]

theorem lookup_none_iff {d : Dict} {k : String} : List.lookup k d = none ↔ k ∉ d.map (·.1) := by
  rw [mem_keys_iff, Classical.not_not]

theorem lookup_setAll_of_not {obj ws : Dict} {k : String} (h : k ∉ ws.map (·.1)) :
    List.lookup k (setAll obj ws) = List.lookup k obj := by
  unfold setAll
  induction ws generalizing obj with
  | nil => rfl
  | cons p ws ih =>
    simp only [List.map_cons, List.mem_cons, not_or] at h
    rw [List.foldl_cons, ih h.2, lookup_set, if_neg h.1]

/-- Writing keys that are all different and new appends. -/
theorem lookup_setAll {obj ws : Dict} (hn : (ws.map (·.1)).Nodup) {k : String} :
    List.lookup k (setAll obj ws) = match List.lookup k ws with
      | some v => some v
      | none => List.lookup k obj := by
  induction ws generalizing obj with
  | nil => rfl
  | cons p ws ih =>
    obtain ⟨l, v⟩ := p
    rw [List.map_cons, List.nodup_cons] at hn
    have : setAll obj ((l, v) :: ws) = setAll (Dict.set obj l v) ws := rfl
    rw [this, ih hn.2, List.lookup_cons, lookup_set]
    by_cases e : k = l
    · subst e
      rw [lookup_none_iff.2 hn.1]
      simp
    · have : (k == l) = false := by simpa using e
      simp only [this, e, if_false]

theorem set_new {d : Dict} {k : String} {v : Val} (h : k ∉ d.map (·.1)) : Dict.set d k v = d ++ [(k, v)] := by
  induction d with
  | nil => rfl
  | cons p d ih =>
    obtain ⟨l, w⟩ := p
    simp only [List.map_cons, List.mem_cons, not_or] at h
    unfold Dict.set
    rw [if_neg (fun e => h.1 e.symm), ih h.2]
    rfl

theorem setAll_new {obj ws : Dict} (hn : (ws.map (·.1)).Nodup) (h : ∀ k ∈ ws.map (·.1), k ∉ obj.map (·.1)) :
    setAll obj ws = obj ++ ws := by
  unfold setAll
  induction ws generalizing obj with
  | nil => simp
  | cons p ws ih =>
    rw [List.map_cons, List.nodup_cons] at hn
    rw [List.foldl_cons, set_new (h _ (by simp)), ih hn.2]
    · simp
    · intro k hk
      simp only [List.map_append, List.map_cons, List.map_nil, List.mem_append, List.mem_singleton, not_or]
      refine ⟨h k (by simp only [List.map_cons, List.mem_cons]; exact .inr hk), ?_⟩
      rintro rfl
      exact hn.1 hk

theorem lookup_erase (d : Dict) (k k' : String) :
    List.lookup k' (Dict.erase d k) = if k' = k then none else List.lookup k' d := by
  unfold Dict.erase
  induction d with
  | nil => simp
  | cons p d ih =>
    obtain ⟨l, w⟩ := p
    rw [List.filter_cons]
    by_cases h : l = k
    · subst h
      simp only [bne_self_eq_false, Bool.false_eq_true, if_false, ih, List.lookup_cons]
      by_cases h' : k' = l
      · simp [h']
      · have : (k' == l) = false := by simpa using h'
        simp [h', this]
    · have : (l != k) = true := by simpa using h
      simp only [this, if_true, List.lookup_cons, ih]
      by_cases h' : k' = l
      · subst h'; simp [h]
      · have : (k' == l) = false := by simpa using h'
        simp [this]

theorem lookup_eraseKeys (d : Dict) (ks : List String) (k : String) :
    List.lookup k (eraseKeys d ks) = if k ∈ ks then none else List.lookup k d := by
  unfold eraseKeys
  induction d with
  | nil => simp
  | cons p d ih =>
    obtain ⟨l, w⟩ := p
    rw [List.filter_cons]
    by_cases h : l ∈ ks
    · have : (!ks.contains l) = false := by simpa using h
      simp only [this, Bool.false_eq_true, if_false, ih, List.lookup_cons]
      by_cases h' : k = l
      · subst h'; simp [h]
      · have : (k == l) = false := by simpa using h'
        simp [this]
    · have : (!ks.contains l) = true := by simpa using h
      simp only [this, if_true, List.lookup_cons, ih]
      by_cases h' : k = l
      · subst h'; simp [h]
      · have : (k == l) = false := by simpa using h'
        simp [this]

/-! ## What the mixins write -/

/-- The keys `to_json` of a mixin may write. -/
def emitKeys : Mx → List String
  | .Rotatable => ["direction"]
  | m => mxKeys m

theorem objSet_keys {k : String} {v : Val} : ∀ p ∈ objSet k v, p.1 = k := by
  unfold objSet
  split
  · simp
  · simp

theorem mxEmit_keys {env : Env} {m : Mx} {a : Kw} {dir : Direction} {w : Dict}
    (h : mxEmit env m a dir = .ok w) : ∀ p ∈ w, p.1 ∈ emitKeys m := by
  intro p hp
  have ho : ∀ {k : String} {v : Val}, p ∈ objSet k v → p.1 = k := fun h => objSet_keys p h
  cases m <;> simp only [mxEmit, bind_eq_ok, pure_eq_ok, Except.ok.injEq] at h
  all_goals first
    | (subst h; cases hp; done)
    | skip
  all_goals simp only [emitKeys, mxKeys, List.mem_cons, List.not_mem_nil, or_false]
  case Items =>
    obtain ⟨d, -, rfl⟩ := h
    split at hp
    · simp at hp; rw [hp]
    · cases hp
  case Train => obtain ⟨d, -, rfl⟩ := h; exact ho hp
  case Cargo => obtain ⟨b, -, f, -, rfl⟩ := h; exact ho hp
  case Color => subst h; exact ho hp
  case Container => obtain ⟨d, -, rfl⟩ := h; exact ho hp
  case Inserter =>
    obtain ⟨o, -, q, -, d, -, rfl⟩ := h
    simp only [List.mem_append] at hp
    rcases hp with (hp | hp) | hp
    · exact .inl (ho hp)
    · exact .inr (.inr (ho hp))
    · exact .inr (.inl (ho hp))
  case FilterInserter =>
    obtain ⟨m, -, f, -, rfl⟩ := h
    simp only [List.mem_append] at hp
    rcases hp with hp | hp
    · exact .inr (ho hp)
    · split at hp
      · simp at hp; rw [hp]; simp
      · cases hp
  case InfinityContainer =>
    obtain ⟨r, -, f, -, rfl⟩ := h
    simp at hp; rw [hp]
  case Recipe => subst h; exact ho hp
  case Requester =>
    obtain ⟨r, -, f, -, rfl⟩ := h
    simp only [List.mem_append] at hp
    rcases hp with hp | hp
    · split at hp
      · simp at hp; rw [hp]; simp
      · cases hp
    · split at hp
      · simp at hp; rw [hp]; simp
      · cases hp
  case Rotatable =>
    subst h
    split at hp
    · cases hp
    · simp at hp; rw [hp]
  case Silo => obtain ⟨d, -, rfl⟩ := h; exact ho hp
  case Speaker =>
    obtain ⟨q, -, x, -, al, hx, rfl⟩ := h
    simp only [List.mem_append] at hp
    rcases hp with hp | hp
    · exact .inl (ho hp)
    · right
      unfold alertJson at hx
      split at hx
      · cases hx; cases hp
      · simp only [bind_eq_ok, pure_eq_ok, Except.ok.injEq] at hx
        obtain ⟨_, -, _, -, _, -, _, -, _, -, rfl⟩ := hx
        simp at hp; rw [hp]
  case Splitter =>
    obtain ⟨o, -, q, -, d, -, rfl⟩ := h
    simp only [List.mem_append] at hp
    rcases hp with (hp | hp) | hp
    · exact .inl (ho hp)
    · exact .inr (.inl (ho hp))
    · exact .inr (.inr (ho hp))
  case Station => obtain ⟨d, -, rfl⟩ := h; exact ho hp
  case Underground => obtain ⟨d, -, rfl⟩ := h; exact ho hp
  case Variation => obtain ⟨d, -, rfl⟩ := h; exact ho hp

theorem emitChain_lookup {env : Env} {dir : Direction} {ms : List Mx} {a : Kw} {obj obj' : Dict} {k : String}
    (h : emitChain env dir ms a obj = .ok obj') (hk : ∀ m ∈ ms, k ∉ emitKeys m) :
    List.lookup k obj' = List.lookup k obj := by
  induction ms generalizing obj with
  | nil => cases h; rfl
  | cons m ms ih =>
    unfold emitChain at h
    split at h
    · cases h
    · rename_i w hw
      rw [ih h (fun n hn => hk n (List.mem_cons_of_mem _ hn)), lookup_setAll_of_not]
      intro hm
      obtain ⟨p, hp, rfl⟩ := List.mem_map.1 hm
      exact hk m (List.mem_cons_self ..) (mxEmit_keys hw p hp)

/-- The keys written by `Entity.to_json` itself. -/
theorem reserved_emit {k : String}
    (h : k = "entity_number" ∨ k = "name" ∨ k = "position" ∨ k = "connections" ∨ k = "control_behavior")
    (m : Mx) : k ∉ emitKeys m := by
  rcases h with rfl | rfl | rfl | rfl | rfl <;> cases m <;> decide

end Verif
