import Verif.Model.Defaults
import Verif.Spec.ItemNames
import Verif.Proofs.AssignOps
/-!
# Names of items in settings: lemmas
-/
set_option autoImplicit false

namespace Verif
open Spec

theorem lookup_rows {s : String} : ∀ {l : List (String × String)},
    (Dict.getD (l.map (fun p => (p.1, Val.dict [("type", .str p.2)]))) s .none).truthy = true ↔ s ∈ l.map (·.1)
  | [] => by simp [Dict.getD, Dict.get?, Val.truthy]
  | (k, t) :: l => by
    have ih := lookup_rows (s := s) (l := l)
    unfold Dict.getD Dict.get? at ih ⊢
    simp only [List.map_cons, List.lookup_cons, List.mem_cons]
    by_cases h : s = k
    · subst h
      simp [Val.truthy]
    · rw [show (s == k) = false by simpa using h]
      simp [h, ih]

/-- A name is accepted if and only if it is in the static table. -/
theorem nameStr_iff {env : Env} (hd : env.defaults = defaultTable) {s : String} :
    (∃ x, nameStr env (.str s) = .ok x) ↔ s ∈ defaultNames.map (·.1) := by
  unfold nameStr
  dsimp only
  rw [hd, ← lookup_rows]
  unfold defaultTable
  split
  · next h => exact ⟨fun _ => h, fun _ => ⟨_, rfl⟩⟩
  · next h => exact ⟨fun hx => (nomatch hx), fun h' => absurd h' h⟩

theorem fill_steps {step : Val → Except Exc (Val × Dict)} : ∀ {fs : List Val} {acc : List (Val × Dict)},
    (fill step fs acc).1 = .ok () → ∀ f ∈ fs, ∃ p, step f = .ok p
  | [], _, _ => by simp
  | f :: fs, acc, h => by
    unfold fill at h
    split at h
    · cases h
    · next p hp =>
      intro g hg
      rcases List.mem_cons.1 hg with rfl | hg
      · exact ⟨p, hp⟩
      · exact fill_steps h g hg

private theorem name_of {row : Dict} {s : String} (h : List.lookup "name" row = some (.str s)) :
    (Val.dict row).subscript "name" = .ok (.str s) := by
  unfold Val.subscript Dict.getItem Dict.get?
  dsimp only
  rw [h]

theorem cargoStep_name {env : Env} {v : Val} {s : String} {p : Val × Dict} (hv : RowNames v s)
    (h : cargoStep env v = .ok p) : ∃ x, nameStr env (.str s) = .ok x := by
  obtain ⟨row, rfl, hr⟩ := hv
  unfold cargoStep at h
  rw [name_of hr, ok_bind] at h
  obtain ⟨x, hx, -⟩ := bind_eq_ok.1 h
  exact ⟨x, hx⟩

theorem requestStep_name {env : Env} {v : Val} {s : String} {p : Val × Dict} (hv : RowNames v s)
    (h : requestStep env v = .ok p) : ∃ x, nameStr env (.str s) = .ok x := by
  obtain ⟨row, rfl, hr⟩ := hv
  unfold requestStep at h
  rw [name_of hr, ok_bind] at h
  obtain ⟨x, hx, -⟩ := bind_eq_ok.1 h
  exact ⟨x, hx⟩

theorem infinityStep_name {env : Env} {v : Val} {s : String} {p : Val × Dict} (hv : RowNames v s)
    (h : infinityStep env v = .ok p) : ∃ x, nameStr env (.str s) = .ok x := by
  obtain ⟨row, rfl, hr⟩ := hv
  unfold infinityStep at h
  obtain ⟨m, -, h⟩ := bind_eq_ok.1 h
  split at h
  · cases h
  · obtain ⟨c, -, h⟩ := bind_eq_ok.1 h
    rw [name_of hr, ok_bind] at h
    obtain ⟨x, hx, -⟩ := bind_eq_ok.1 h
    exact ⟨x, hx⟩

theorem fillSetter_steps {k : String} {step : Val → Except Exc (Val × Dict)} {fs : List Val}
    (h : (fillSetter k step (.ok fs)).1 = .ok ()) : ∀ f ∈ fs, ∃ p, step f = .ok p :=
  fill_steps h

theorem andThen_ok {x y : Setter} (h : (Setter.andThen x y).1 = .ok ()) : y.1 = .ok () := by
  unfold Setter.andThen at h
  split at h
  · next e he => rw [he] at h; cases h
  · exact h

/-- An accepted setting names known items only. -/
theorem mxAssign_names {env : Env} {strict sh : Bool} {k : String} {v : Val} {s : String} (hn : NamesItem k v s)
    (h : (mxAssign env strict sh k v).1 = .ok ()) : ∃ x, nameStr env (.str s) = .ok x := by
  cases hn with
  | splitter =>
    change (setOne "filter" (nameStr env (.str s))).1 = _ at h
    unfold setOne at h
    split at h
    · cases h
    · next x hx => exact ⟨x, hx⟩
  | @cargo d l v s hl hv hr =>
    change (setInventory env (.dict d)).1 = _ at h
    unfold setInventory at h
    simp only [Val.asDict, Dict.getD, Dict.get?, hl, Option.getD_some, Val.iter] at h
    obtain ⟨p, hp⟩ := fillSetter_steps (andThen_ok h) v hv
    exact cargoStep_name hr hp
  | @infinity d l v s hl hv hr =>
    change (setInfinity env (.dict d)).1 = _ at h
    unfold setInfinity at h
    split at h
    · cases h
    · have h := andThen_ok h
      rw [show (Val.dict d).subscript "filters" = .ok (.list l) by
        unfold Val.subscript Dict.getItem Dict.get?; dsimp only; rw [hl]] at h
      obtain ⟨p, hp⟩ := fillSetter_steps h v hv
      exact infinityStep_name hr hp
  | @request l v s hv hr =>
    change (setRequestFilters env (.list l)).1 = _ at h
    obtain ⟨p, hp⟩ := fillSetter_steps h v hv
    exact requestStep_name hr hp
  | @alert d icon s hi hr =>
    change (setOne "alert_parameters" (readAlert env (.dict d))).1 = _ at h
    unfold setOne at h
    split at h
    · cases h
    · next x hx =>
      unfold readAlert at hx
      obtain ⟨_, -, hx⟩ := bind_eq_ok.1 hx
      obtain ⟨_, -, hx⟩ := bind_eq_ok.1 hx
      simp only [Val.asDict, Dict.getD, Dict.get?, hi, hr, Option.getD_some, ok_bind] at hx
      obtain ⟨x, hx, -⟩ := bind_eq_ok.1 hx
      exact ⟨x, hx⟩

theorem Spec.NamesItem.settings {k : String} {v : Val} {s : String} (h : NamesItem k v s) :
    k ∉ entityKeys := by
  cases h <;> decide

theorem setProtos_defaults (t : Table) (d : Dict) (a : Bool) (D : Dict) :
    Keeps (fun w => w.env.defaults = D) (setProtos t d a) := by
  constructor
  intro w hw
  cases t <;> exact hw

theorem importProtos_defaults (v : Val) (a : Bool) (D : Dict) :
    Keeps (fun w => w.env.defaults = D) (importProtos v a) := by
  have h : ∀ key t, Keeps (fun w => w.env.defaults = D) (importTable v a key t) := by
    intro key t
    refine Keeps.bind (Keeps.lift _) (fun x => ?_)
    cases x with
    | dict d => exact setProtos_defaults t d a D
    | _ => exact Keeps.throw _
  exact Keeps.bind (h _ _) fun _ => Keeps.bind (h _ _) fun _ => Keeps.bind (h _ _) fun _ => Keeps.bind (h _ _) fun _ =>
    h _ _

/-- No call changes the static table. -/
theorem Op.defaults {w : World} (op : Op) (h : op.refsOk w) : (op.run w).2.env.defaults = w.env.defaults := by
  by_cases hk : op.kind.data = true
  · cases op with
    | setProtos t d a => exact (setProtos_defaults t d a _).1 w rfl
    | importProtos d a => exact (importProtos_defaults d a _).1 w rfl
    | _ => cases hk
  · have : (op.run w).2.env = w.env := by
      refine Steps.induct (k := op.kind) (I := fun u => u.env = w.env) ?_ (op.steps h) rfl
      intro u u' hu hp
      cases hp with
      | env e he => exact absurd he hk
      | _ => exact hu
    rw [this]

end Verif
