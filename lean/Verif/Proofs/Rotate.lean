import Verif.Proofs.Each
import Verif.Proofs.Classes
import Verif.Proofs.Dict
import Verif.Props.Vectors
/-!
# Helper lemmas: what rotating does to an entity
-/
set_option autoImplicit false

namespace Verif
open Spec

/-! ## Fractions of a turn -/

/-- The part of a rational after the point. -/
def fract (q : Rat) : Rat := q - (q.floor : Rat)

theorem fract_range (q : Rat) : 0 ≤ fract q ∧ fract q < 1 := by
  unfold fract
  have h1 := Rat.floor_le q
  have h2 := Rat.lt_floor_add_one q
  rw [Rat.intCast_add] at h2
  simp only [Rat.intCast_one] at h2
  grind

theorem fract_shift (q : Rat) : ∃ z : Int, fract q = q + (z : Rat) :=
  ⟨-q.floor, by unfold fract; rw [Rat.intCast_neg]; grind⟩

theorem fract_unique {q a : Rat} (h : 0 ≤ a ∧ a < 1) (hz : ∃ z : Int, a = q + (z : Rat)) : a = fract q := by
  obtain ⟨z, rfl⟩ := hz
  obtain ⟨y, hy⟩ := fract_shift q
  have h2 := fract_range q
  rw [hy] at h2 ⊢
  have h3 : (z : Rat) < (y : Rat) + 1 := by grind
  have h4 : (y : Rat) < (z : Rat) + 1 := by grind
  have h5 : z < y + 1 := by exact_mod_cast h3
  have h6 : y < z + 1 := by exact_mod_cast h4
  have : z = y := by omega
  rw [this]

theorem fract_congr {p q : Rat} (h : ∃ z : Int, p = q + (z : Rat)) : fract p = fract q := by
  obtain ⟨z, rfl⟩ := h
  obtain ⟨y, hy⟩ := fract_shift (q + z)
  refine fract_unique (fract_range _) ⟨z + y, ?_⟩
  rw [hy, Rat.intCast_add]
  grind

theorem fract_fract_add (p q : Rat) : fract (fract p + q) = fract (p + q) := by
  obtain ⟨z, hz⟩ := fract_shift p
  exact fract_congr ⟨z, by rw [hz]; grind⟩

theorem fract_add_fract (p q : Rat) : fract (p + fract q) = fract (p + q) := by
  obtain ⟨z, hz⟩ := fract_shift q
  exact fract_congr ⟨z, by rw [hz]; grind⟩

theorem fract_of_range {q : Rat} (h : 0 ≤ q ∧ q < 1) : fract q = q :=
  (fract_unique h ⟨0, by simp⟩).symm

theorem Num.mod_one (n : Num) : n.mod (.flt 1) = .ok (.flt (fract n.val)) := by
  unfold Num.mod
  rw [if_neg (by decide)]
  cases n <;> simp [fract]

theorem Num.flt_mod_one (q : Rat) : (Num.flt q).mod (.int 1) = .ok (.flt (fract q)) := by
  unfold Num.mod
  rw [if_neg (by decide)]
  simp [fract]

theorem orientationSet_ok {v o : Val} (h : orientationSet v = .ok o) :
    o = .none ∨ ∃ n, v.num? = some n ∧ o = .flt (fract n.val) := by
  unfold orientationSet at h
  split at h
  · cases h; exact .inl rfl
  · cases h
  · split at h
    · rename_i n hn
      rw [Num.mod_one] at h
      cases h
      exact .inr ⟨n, hn, rfl⟩
    · cases h

namespace Entity

/-- The orientation as a number. -/
def ori (e : Entity) : Option Num := (Dict.get? e.attrs "orientation").bind Val.num?

theorem rotateOrientation_ok {e e' : Entity} {n : Int} : rotateOrientation e n = .ok e' ↔
    ∃ o, e.ori = some o ∧
      e' = { e with attrs := Dict.set e.attrs "orientation" (.flt (fract (o.val + (n : Rat) / 4))) } := by
  unfold rotateOrientation ori
  have hm : (Num.mul (.flt (1/4)) (.int n)).mod (.int 1) = .ok (.flt (fract ((n : Rat) / 4))) := by
    show (Num.flt _).mod _ = _
    rw [Num.flt_mod_one]
    congr 3
    simp only [Num.val_flt, Num.val_int]
    grind
  cases Dict.get? e.attrs "orientation" with
  | none => constructor <;> simp [throw, throwThe, MonadExceptOf.throw]
  | some v =>
    dsimp only [Option.bind_some]
    cases hv : v.num? with
    | none => constructor <;> simp [throw, throwThe, MonadExceptOf.throw]
    | some m =>
      have ho : orientationSet (.num (m.add (.flt (fract ((n : Rat) / 4))))) =
          .ok (.flt (fract (m.val + (n : Rat) / 4))) := by
        show (do return Val.num (← (m.add _).mod (.flt 1)) : Except Exc Val) = _
        rw [Num.mod_one, Num.val_add, Num.val_flt, fract_add_fract]
        rfl
      dsimp only
      rw [hm]
      show (do let o ← orientationSet (.num (m.add (.flt (fract ((n : Rat) / 4))))); _ : Except Exc Entity) = _ ↔ _
      rw [ho]
      show Except.ok _ = Except.ok _ ↔ _
      simp only [Except.ok.injEq, Option.some.injEq]
      constructor
      · intro h; exact ⟨m, rfl, h.symm⟩
      · rintro ⟨_, rfl, h⟩; exact h.symm

/-- The entity after the mixins `ms` turned it. -/
def turned (e : Entity) (n : Int) (ms : List Mx) : Entity :=
  { e with
    dir := if .Rotatable ∈ ms then Direction.new (e.dir.n + 2 * n * (ms.count .Rotatable : Int)) else e.dir
    attrs := if .Orientation ∈ ms then
        Dict.set e.attrs "orientation"
          (.flt (fract ((e.ori.getD (.int 0)).val + (n : Rat) * ((ms.count .Orientation : Nat) : Rat) / 4)))
      else e.attrs }

theorem set_set (d : Dict) (k : String) (v v' : Val) : Dict.set (Dict.set d k v) k v' = Dict.set d k v' := by
  induction d with
  | nil => simp [Dict.set]
  | cons p d ih =>
    obtain ⟨l, x⟩ := p
    by_cases h : l = k
    · simp [Dict.set, h]
    · simp [Dict.set, h, ih]

theorem set_self {d : Dict} {k : String} {v : Val} (h : List.lookup k d = some v) : Dict.set d k v = d := by
  induction d with
  | nil => cases h
  | cons p d ih =>
    obtain ⟨l, x⟩ := p
    by_cases e : l = k
    · subst e
      simp at h
      simp [Dict.set, h]
    · have e' : (k == l) = false := by simp [Ne.symm e]
      rw [List.lookup_cons, e'] at h
      simp [Dict.set, e, ih h]

theorem ori_set (e : Entity) (q : Rat) :
    ori { e with attrs := Dict.set e.attrs "orientation" (.flt q) } = some (.flt q) := by
  unfold ori Dict.get?
  rw [lookup_set, if_pos rfl]
  rfl

theorem rotateChain_ok {n : Int} {ms : List Mx} {e e' : Entity} : rotateChain n ms e = (.ok (), e') ↔
    (.Orientation ∈ ms → e.ori ≠ none) ∧ e' = e.turned n ms := by
  induction ms generalizing e with
  | nil =>
    simp only [rotateChain, turned, List.not_mem_nil, if_false, false_implies, true_and, Prod.mk.injEq]
    exact eq_comm
  | cons m ms ih =>
    by_cases h1 : m = .Rotatable
    · subst h1
      rw [rotateChain, ih]
      refine and_congr ?_ ?_
      · simp [ori]
      · have : ({ e with dir := e.dir.rotate n } : Entity).turned n ms = e.turned n (.Rotatable :: ms) := by
          unfold turned
          dsimp only
          congr 1
          · rw [if_pos (List.mem_cons_self ..), List.count_cons_self]
            have hr : (e.dir.rotate n).n = (e.dir.n + 2 * n) % 8 := by
              simp only [Direction.rotate, Direction.CLOCKWISE, Direction.add, Direction.new]
              simp
              omega
            split
            · simp only [Direction.new, Direction.mk.injEq, hr]
              push_cast
              have : 2 * n * ((ms.count .Rotatable : Int) + 1) = 2 * n * (ms.count .Rotatable : Int) + 2 * n := by
                rw [Int.mul_add, Int.mul_one]
              omega
            · rename_i hm
              rw [List.count_eq_zero.2 hm]
              have : e.dir.rotate n = ⟨(e.dir.rotate n).n⟩ := rfl
              rw [this, hr]
              simp [Direction.new]
          · have hc : (Mx.Rotatable :: ms).count .Orientation = ms.count .Orientation := by
              rw [List.count_cons_of_ne (by decide)]
            have hm : (Mx.Orientation ∈ Mx.Rotatable :: ms) = (Mx.Orientation ∈ ms) := by simp
            simp only [hc, hm]
            rfl
        rw [this]
    · by_cases h2 : m = .Orientation
      · subst h2
        rw [rotateChain]
        cases hr : rotateOrientation e n with
        | error x =>
          dsimp only
          constructor
          · intro h; cases h
          · rintro ⟨h, -⟩
            have := h (List.mem_cons_self ..)
            cases ho : e.ori with
            | none => exact absurd ho this
            | some o =>
              have := (rotateOrientation_ok (n := n)).2 ⟨o, ho, rfl⟩
              rw [hr] at this
              cases this
        | ok e1 =>
          dsimp only
          obtain ⟨o, ho, rfl⟩ := rotateOrientation_ok.1 hr
          rw [ih, ori_set]
          have : ({ e with attrs := Dict.set e.attrs "orientation" (.flt (fract (o.val + (n : Rat) / 4))) } :
              Entity).turned n ms = e.turned n (.Orientation :: ms) := by
            unfold turned
            dsimp only
            congr 1
            · have hc : (Mx.Orientation :: ms).count .Rotatable = ms.count .Rotatable := by
                rw [List.count_cons_of_ne (by decide)]
              have hm : (Mx.Rotatable ∈ Mx.Orientation :: ms) = (Mx.Rotatable ∈ ms) := by simp
              simp only [hc, hm]
            · rw [if_pos (List.mem_cons_self ..), List.count_cons_self, ho, ori_set]
              dsimp only [Option.getD_some]
              split
              · rw [set_set, Num.val_flt, fract_fract_add]
                have : o.val + (n : Rat) / 4 + (n : Rat) * ((ms.count .Orientation : Nat) : Rat) / 4 =
                    o.val + (n : Rat) * ((ms.count .Orientation + 1 : Nat) : Rat) / 4 := by
                  push_cast
                  grind
                rw [this]
              · rename_i hm
                rw [List.count_eq_zero.2 hm]
                simp
          rw [this]
          simp [ho]
      · have hr : rotateChain n (m :: ms) e = rotateChain n ms e := by
          cases m <;> first | rfl | exact absurd rfl h1 | exact absurd rfl h2
        rw [hr, ih]
        have hc1 : (m :: ms).count .Rotatable = ms.count .Rotatable := List.count_cons_of_ne h1
        have hc2 : (m :: ms).count .Orientation = ms.count .Orientation := List.count_cons_of_ne h2
        have hm1 : (Mx.Rotatable ∈ m :: ms) = (Mx.Rotatable ∈ ms) := by simp [Ne.symm h1]
        have hm2 : (Mx.Orientation ∈ m :: ms) = (Mx.Orientation ∈ ms) := by simp [Ne.symm h2]
        unfold turned
        simp only [hc1, hc2, hm1, hm2]

/-! ## Positions -/

/-- The point `p` turned `n` times around `a`. -/
def moved (n : Int) (a p : Vec) : Vec := (Vec.quarters n.toNat (p.subV a)).addV a

theorem sub_ok {v p : Vec} {o : Operand} :
    v.sub o = .ok p ↔ ∃ a : Vec, o.parts = some (a.x, a.y) ∧ p = v.subV a := by
  constructor
  · intro h
    match o, h with
    | .vec w, h => cases h; exact ⟨w, rfl, rfl⟩
    | .num n, h => cases h; exact ⟨⟨n, n⟩, rfl, rfl⟩
    | .tup [x, y], h => cases h; exact ⟨⟨x, y⟩, rfl, rfl⟩
  · rintro ⟨a, h, rfl⟩
    exact (C05_componentwise v o a.x a.y h).2.2.1

theorem rotate_ok {e e' : Entity} {n : Int} {o : Operand} {d : DirArg} :
    e.rotate n o d = (.ok (), e') ↔ ∃ a : Vec, o.parts = some (a.x, a.y) ∧
      (.Orientation ∈ e.klass.chain → e.ori ≠ none) ∧
      e' = { e.turned (turns n d) e.klass.chain with pos := moved (turns n d) a e.pos } := by
  unfold rotate
  constructor
  · intro h
    cases hs : e.pos.sub o with
    | error x => rw [hs] at h; cases h
    | ok p =>
      rw [hs] at h
      obtain ⟨a, ha, rfl⟩ := sub_ok.1 hs
      dsimp only at h
      rw [(C05_componentwise _ o a.x a.y ha).1] at h
      dsimp only at h
      rw [rotateChain_ok] at h
      exact ⟨a, ha, h.1, h.2⟩
  · rintro ⟨a, ha, h1, rfl⟩
    rw [sub_ok.2 ⟨a, ha, rfl⟩]
    dsimp only
    rw [(C05_componentwise _ o a.x a.y ha).1]
    dsimp only
    rw [rotateChain_ok]
    exact ⟨h1, rfl⟩

theorem rotate_fails {e : Entity} {n : Int} {o : Operand} {d : DirArg} :
    (e.rotate n o d).1 = .ok () ↔ o.parts ≠ none ∧ (.Orientation ∈ e.klass.chain → e.ori ≠ none) := by
  constructor
  · intro h
    obtain ⟨a, h1, h2, -⟩ := rotate_ok.1 (show e.rotate n o d = (.ok (), (e.rotate n o d).2) by rw [← h])
    exact ⟨by rw [h1]; simp, h2⟩
  · rintro ⟨h1, h2⟩
    cases hp : o.parts with
    | none => exact absurd hp h1
    | some a =>
      have := (rotate_ok (n := n) (d := d)).2 ⟨⟨a.1, a.2⟩, hp, h2, rfl⟩
      rw [this]

theorem turns_range (n : Int) (d : DirArg) : 0 ≤ turns n d ∧ turns n d < 4 := by
  unfold turns
  dsimp only
  have h : n % 4 = 0 ∨ n % 4 = 1 ∨ n % 4 = 2 ∨ n % 4 = 3 := by omega
  rcases h with h | h | h | h <;> rw [h] <;> split <;> decide

theorem turns_cw (n : Int) : turns n (.int Direction.CLOCKWISE) = n % 4 := by
  simp [turns]

theorem quarters_val (n : Nat) (h : n < 4) (p : Vec) :
    ((Vec.quarters n p).x.val = if n = 0 then p.x.val else if n = 1 then - p.y.val else
      if n = 2 then - p.x.val else p.y.val) ∧
    ((Vec.quarters n p).y.val = if n = 0 then p.y.val else if n = 1 then p.x.val else
      if n = 2 then - p.y.val else - p.x.val) := by
  rcases n with _ | _ | _ | _ | n
  all_goals first | (simp [Vec.quarters, Vec.quarter]; done) | omega

theorem moved_samePos_iff {n : Int} (h : 0 ≤ n ∧ n < 4) (a p q : Vec) :
    SamePos (moved n a p) (moved n a q) ↔ SamePos p q := by
  obtain ⟨hp1, hp2⟩ := quarters_val n.toNat (by omega) (p.subV a)
  obtain ⟨hq1, hq2⟩ := quarters_val n.toNat (by omega) (q.subV a)
  unfold SamePos moved
  simp only [Vec.addV, Num.val_add]
  rw [hp1, hp2, hq1, hq2]
  simp only [Vec.subV, Num.val_sub]
  split
  · grind
  · split
    · grind
    · split <;> grind

theorem moved_moved {m n k : Int} (hm : 0 ≤ m) (hn : 0 ≤ n) (hk : 0 ≤ k) (h : k % 4 = (m + n) % 4) (a p : Vec) :
    SamePos (moved n a (moved m a p)) (moved k a p) := by
  have hq : Vec.quarters n.toNat (Vec.quarters m.toNat (p.subV a)) = Vec.quarters k.toNat (p.subV a) := by
    rw [← Vec.quarters_add, ← Vec.quarters_mod, ← Vec.quarters_mod k.toNat]
    congr 1
    omega
  have hc : ∀ (i : Nat) (u v : Vec), SamePos u v → SamePos (Vec.quarters i u) (Vec.quarters i v) := by
    intro i
    induction i with
    | zero => exact fun u v h => h
    | succ i ih =>
      intro u v h
      refine ih _ _ ?_
      unfold SamePos at h ⊢
      simp [Vec.quarter, h.1, h.2]
  have hs := hc n.toNat ((moved m a p).subV a) (Vec.quarters m.toNat (p.subV a)) (by
    simp only [SamePos, moved, Vec.subV, Vec.addV, Num.val_sub, Num.val_add]
    grind)
  rw [hq] at hs
  unfold SamePos at hs ⊢
  simp only [moved, Vec.addV, Num.val_add] at hs ⊢
  exact ⟨by rw [← hs.1], by rw [← hs.2]⟩

theorem moved_moved_int {m n k : Int} (hm : 0 ≤ m) (hn : 0 ≤ n) (hk : 0 ≤ k) (h : k % 4 = (m + n) % 4)
    (a p : Vec) (ha : a.x.isInt = true ∧ a.y.isInt = true) :
    moved n a (moved m a p) = moved k a p := by
  have hq : Vec.quarters n.toNat (Vec.quarters m.toNat (p.subV a)) = Vec.quarters k.toNat (p.subV a) := by
    rw [← Vec.quarters_add, ← Vec.quarters_mod, ← Vec.quarters_mod k.toNat]
    congr 1
    omega
  have hc : ∀ v : Vec, (v.addV a).subV a = v := by
    intro v
    obtain ⟨⟨x⟩ | ⟨x⟩, ⟨y⟩ | ⟨y⟩⟩ := a <;> simp [Num.isInt] at ha
    obtain ⟨⟨u⟩ | ⟨u⟩, ⟨v⟩ | ⟨v⟩⟩ := v <;>
      simp [Vec.addV, Vec.subV, Num.add, Num.sub] <;> grind
  unfold moved
  rw [hc, hq]

theorem moved_zero_int (a p : Vec) (ha : a.x.isInt = true ∧ a.y.isInt = true) : moved 0 a p = p := by
  unfold moved
  obtain ⟨⟨x⟩ | ⟨x⟩, ⟨y⟩ | ⟨y⟩⟩ := a <;> simp [Num.isInt] at ha
  obtain ⟨⟨u⟩ | ⟨u⟩, ⟨v⟩ | ⟨v⟩⟩ := p <;>
    simp [Vec.quarters, Vec.addV, Vec.subV, Num.add, Num.sub] <;> grind

theorem ori_turned (e : Entity) (n : Int) (ms : List Mx) :
    (e.turned n ms).ori = if .Orientation ∈ ms then
      some (.flt (fract ((e.ori.getD (.int 0)).val + (n : Rat) * ((ms.count .Orientation : Nat) : Rat) / 4)))
      else e.ori := by
  by_cases h : Mx.Orientation ∈ ms
  · simp only [turned, h, if_true]
    unfold ori Dict.get?
    dsimp only
    rw [lookup_set, if_pos rfl]
    rfl
  · simp only [turned, h, if_false]
    rfl

theorem turned_turned {m n k : Int} (h : k % 4 = (m + n) % 4) (e : Entity) (ms : List Mx) :
    (e.turned m ms).turned n ms = e.turned k ms := by
  obtain ⟨z, hz⟩ : ∃ z, m + n = k + 4 * z := ⟨(m + n - k) / 4, by omega⟩
  have ho := ori_turned e m ms
  unfold turned at ho ⊢
  dsimp only at ho ⊢
  rw [ho]
  congr 1
  · split
    · simp only [Direction.new, Direction.mk.injEq]
      generalize (List.count Mx.Rotatable ms : Int) = c
      have h1 : 2 * m * c + 2 * n * c = 2 * k * c + 8 * (z * c) := by
        rw [← Int.add_mul, ← Int.mul_add, hz]; grind
      omega
    · rfl
  · split
    · rw [set_set]
      dsimp only [Option.getD_some]
      rw [Num.val_flt, fract_fract_add]
      have : fract ((e.ori.getD (.int 0)).val + (m : Rat) * ((ms.count .Orientation : Nat) : Rat) / 4 +
            (n : Rat) * ((ms.count .Orientation : Nat) : Rat) / 4) =
          fract ((e.ori.getD (.int 0)).val + (k : Rat) * ((ms.count .Orientation : Nat) : Rat) / 4) := by
        refine fract_congr ⟨z * (ms.count .Orientation : Int), ?_⟩
        have hz' : (m : Rat) + (n : Rat) = (k : Rat) + 4 * (z : Rat) := by exact_mod_cast hz
        push_cast
        grind
      rw [this]
    · rfl

end Entity
end Verif
