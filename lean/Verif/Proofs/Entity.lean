import Verif.Model.Entity
import Verif.Proofs.Except
/-!
# Inversion lemmas for the entity constructor
-/
set_option autoImplicit false

namespace Verif
namespace Entity

/-- The ways in which assigning a name succeeds. -/
theorem setName_ok {env : Env} {custom : Option Custom} {e e' : Entity} {v : Val}
    (h : e.setName env custom v = (.ok (), e')) :
    ∃ s, v = .str s ∧
      ((e.strict = false ∧ e' = { e with name := s }) ∨
       (e.strict = true ∧ ∃ data t ms k, Dict.get? env.entities s = some data ∧
          data.subscript "type" = .ok t ∧ mixinsFor custom t = .ok ms ∧
          Klass.extend e.depth e.klass ms = .ok k ∧
          e' = { e with name := s, klass := k, depth := e.depth + 1 })) := by
  unfold setName at h
  cases hs : e.strict
  · simp only [hs, Bool.not_false, if_true] at h
    split at h
    · rename_i s
      simp only [Prod.mk.injEq, true_and] at h
      exact ⟨s, rfl, .inl ⟨rfl, h.symm⟩⟩
    · simp at h
  · simp only [hs, Bool.not_true, Bool.false_eq_true, if_false] at h
    split at h
    · rename_i s
      refine ⟨s, rfl, .inr ⟨rfl, ?_⟩⟩
      split at h
      · simp at h
      · rename_i data hd
        split at h
        · simp at h
        · rename_i t ht
          split at h
          · simp at h
          · rename_i ms hms
            split at h
            · simp at h
            · rename_i k hk
              simp only [Prod.mk.injEq, true_and] at h
              exact ⟨data, t, ms, k, hd, ht, hms, hk, by rw [← h]⟩
    · simp at h

/-- Assigning a name changes nothing but name and class. -/
theorem setName_frame (env : Env) (custom : Option Custom) (e : Entity) (v : Val) :
    ∃ s k d, (e.setName env custom v).2 = { e with name := s, klass := k, depth := d } := by
  unfold setName
  split
  · split
    · exact ⟨_, e.klass, e.depth, rfl⟩
    · exact ⟨e.name, e.klass, e.depth, rfl⟩
  · split
    · split
      · exact ⟨e.name, e.klass, e.depth, rfl⟩
      · split
        · exact ⟨_, e.klass, e.depth, rfl⟩
        · split
          · exact ⟨_, e.klass, e.depth, rfl⟩
          · dsimp only
            split
            · exact ⟨_, e.klass, e.depth, rfl⟩
            · exact ⟨_, _, _, rfl⟩
    · exact ⟨e.name, e.klass, e.depth, rfl⟩

theorem finish_ok {env : Env} {e e' : Entity} {position : Val} {kw : Dict} :
    finish env e position kw = .ok e' ↔
    ∃ pos dir cb a, posOf position = .ok pos ∧
      Direction.ofVal (Dict.getD kw "direction" (.int 0)) = .ok dir ∧ cbOf env e kw = .ok cb ∧
      initChain env e.strict e.klass.insFiltersShadowed (leftoverExc env e.name) e.klass.chain false
        (eraseKeys kw (ownKeys ++ ["connections", "control_behavior"])) [] = .ok a ∧
      e' = { e with pos := pos, dir := dir, raw := Dict.getD kw "connections" .none, cb := cb,
                    attrs := a } := by
  unfold finish
  simp only [bind_eq_ok, pure_eq_ok, Except.ok.injEq]
  constructor
  · rintro ⟨pos, hp, dir, hd, cb, hc, a, ha, rfl⟩
    exact ⟨pos, dir, cb, a, hp, hd, hc, ha, rfl⟩
  · rintro ⟨pos, dir, cb, a, hp, hd, hc, ha, rfl⟩
    exact ⟨pos, hp, dir, hd, cb, hc, a, ha, rfl⟩

/-- The object as it is before `self.name = name` is executed. -/
def raw0 (layer : Option BpId) (kw : Dict) (number : Option Int) : Entity :=
  { strict := (Dict.getD kw "strict" (.bool true)).truthy, layer := layer, number := number,
    auto := number, name := "", pos := ⟨.int 0, .int 0⟩ }

theorem new_ok {env : Env} {custom : Option Custom} {layer : Option BpId} {kw : Dict} {e : Entity} :
    new env custom layer kw = .ok e ↔
    Dict.mem kw "self" = false ∧ Dict.mem kw "blueprint_layer" = false ∧
    ∃ name position number e', Dict.get? kw "name" = some name ∧
      Dict.get? kw "position" = some position ∧
      numberOf (Dict.getD kw "entity_number" .none) = .ok number ∧
      setName env custom (raw0 layer kw number) name = (.ok (), e') ∧
      finish env e' position kw = .ok e := by
  unfold new
  by_cases hk : (Dict.mem kw "self" || Dict.mem kw "blueprint_layer") = true
  · simp only [hk, if_true]
    simp only [Bool.or_eq_true] at hk
    constructor
    · intro h; cases h
    · rintro ⟨h1, h2, -⟩; rcases hk with hk | hk <;> simp_all
  · simp only [hk, Bool.false_eq_true, if_false]
    simp only [Bool.or_eq_true, not_or, Bool.not_eq_true] at hk
    simp only [hk, true_and]
    constructor
    · intro h
      split at h
      · rename_i name position hn hp
        split at h
        · cases h
        · rename_i number hnum
          split at h
          · cases h
          · rename_i e' hs
            exact ⟨name, position, number, e', hn, hp, hnum, hs, h⟩
      · cases h
    · rintro ⟨name, position, number, e', hn, hp, hnum, hs, h⟩
      rw [hn, hp]
      simp only [hnum]
      rw [raw0] at hs
      rw [hs]
      exact h

theorem new_layer {env : Env} {custom : Option Custom} {layer : Option BpId} {kw : Dict}
    {e : Entity} (h : new env custom layer kw = .ok e) : e.layer = layer := by
  obtain ⟨-, -, name, position, number, e', -, -, -, hs, hf⟩ := new_ok.1 h
  obtain ⟨pos, dir, cb, a, -, -, -, -, rfl⟩ := finish_ok.1 hf
  obtain ⟨s, k, d, he⟩ := setName_frame env custom (raw0 layer kw number) name
  rw [hs] at he
  dsimp only at he
  rw [he]
  rfl

/-- A newly constructed entity carries the imported number. -/
theorem new_number {env : Env} {custom : Option Custom} {layer : Option BpId} {kw : Dict}
    {e : Entity} (h : new env custom layer kw = .ok e) :
    numberOf (Dict.getD kw "entity_number" .none) = .ok e.number ∧ e.auto = e.number := by
  obtain ⟨-, -, name, position, number, e', -, -, hn, hs, hf⟩ := new_ok.1 h
  obtain ⟨pos, dir, cb, a, -, -, -, -, rfl⟩ := finish_ok.1 hf
  obtain ⟨s, k, d, he⟩ := setName_frame env custom (raw0 layer kw number) name
  rw [hs] at he
  dsimp only at he
  rw [he]
  exact ⟨hn, rfl⟩

/-! ## Frame lemmas for rotation -/

theorem rotateOrientation_frame {e e' : Entity} {amount : Int}
    (h : rotateOrientation e amount = .ok e') : ∃ a, e' = { e with attrs := a } := by
  unfold rotateOrientation at h
  split at h
  · cases h
  · split at h
    · cases h
    · simp only [bind_eq_ok, pure_eq_ok, Except.ok.injEq] at h
      obtain ⟨_, _, o, _, rfl⟩ := h
      exact ⟨_, rfl⟩

theorem rotateChain_frame (amount : Int) (ms : List Mx) (e : Entity) :
    ∃ d a, (rotateChain amount ms e).2 = { e with dir := d, attrs := a } := by
  fun_induction rotateChain amount ms e with
  | case1 e => exact ⟨e.dir, e.attrs, rfl⟩
  | case2 e ms ih => obtain ⟨d, a, h⟩ := ih; exact ⟨d, a, h⟩
  | case3 ms e x h => exact ⟨e.dir, e.attrs, rfl⟩
  | case4 ms e e' h ih =>
    obtain ⟨d, a, h'⟩ := ih
    obtain ⟨a', rfl⟩ := rotateOrientation_frame h
    exact ⟨d, a, h'⟩
  | case5 ms e m h1 h2 ih => exact ih

theorem rotate_frame (e : Entity) (amount : Int) (around : Operand) (dir : DirArg) :
    ∃ p d a, (e.rotate amount around dir).2 = { e with pos := p, dir := d, attrs := a } := by
  unfold rotate
  split
  · exact ⟨e.pos, e.dir, e.attrs, rfl⟩
  · dsimp only
    split
    · exact ⟨e.pos, e.dir, e.attrs, rfl⟩
    · rename_i p _
      obtain ⟨d, a, h⟩ := rotateChain_frame (turns amount dir) e.klass.chain { e with pos := p }
      exact ⟨p, d, a, h⟩

end Entity
end Verif
