import Verif.Props.Vectors
import Verif.Model.Tile
/-!
# Property C49: `Tile.rotate`
-/
set_option autoImplicit false

namespace Verif
open Vec

/-- Specification: the point `p` turned by `k` quarter turns clockwise (the y axis points down)
around `c`, as plain numbers. -/
def turned (k : Nat) (px py cx cy : Rat) : Rat × Rat :=
  match k % 4 with
  | 0 => (px, py)
  | 1 => (cx - (py - cy), cy + (px - cx))
  | 2 => (cx - (px - cx), cy - (py - cy))
  | _ => (cx + (py - cy), cy - (px - cx))

theorem quarters_val (n : Nat) (v : Vec) :
    ((quarters n v).x.val, (quarters n v).y.val) = turned n v.x.val v.y.val 0 0 := by
  rw [← quarters_mod]
  have : n % 4 = 0 ∨ n % 4 = 1 ∨ n % 4 = 2 ∨ n % 4 = 3 := by omega
  rcases this with h | h | h | h <;> simp [turned, h, quarters, quarter]

theorem around_val (n : Nat) (p c : Vec) :
    (((quarters n (p.subV c)).addV c).x.val, ((quarters n (p.subV c)).addV c).y.val) =
      turned n p.x.val p.y.val c.x.val c.y.val := by
  have h := quarters_val n (p.subV c)
  have e : n % 4 = 0 ∨ n % 4 = 1 ∨ n % 4 = 2 ∨ n % 4 = 3 := by omega
  rw [Prod.ext_iff] at h ⊢
  obtain ⟨h1, h2⟩ := h
  rcases e with e | e | e | e <;> simp [turned, e, addV, subV] at h1 h2 ⊢ <;>
    constructor <;> grind

/-- C49: what `tile.rotate` does, for every amount, centre and direction argument: `'clockwise'`
turns by `amount` quarter turns, every other argument by `-amount`. -/
theorem C49_tile_rotate_meaning (t : Tile) (k : Int) (c : Vec) (d : DirArg) :
    let t' := t.rotate k c d
    let n : Int := if d = .str "clockwise" then k else -k
    t'.name = t.name ∧
    (t'.pos.x.val, t'.pos.y.val) =
      turned (n % 4).toNat t.pos.x.val t.pos.y.val c.x.val c.y.val := by
  refine ⟨rfl, ?_⟩
  have h := around_val (Tile.turns k d) t.pos c
  simp only [Tile.rotate]
  rw [h]
  have : (Tile.turns k d) % 4 = ((if d = .str "clockwise" then k else -k) % 4).toNat % 4 := by
    unfold Tile.turns
    by_cases hd : d = .str "clockwise"
    · simp [hd]
    · simp only [hd, ne_eq, not_false_eq_true, if_true, if_false]; omega
  simp only [turned, this]

/-- Specification: two tiles with the same name at numerically the same position. -/
def Tile.Same (s t : Tile) : Prop :=
  s.name = t.name ∧ s.pos.x.val = t.pos.x.val ∧ s.pos.y.val = t.pos.y.val

/-- C49: counter-clockwise undoes clockwise and vice versa, four quarter turns are the identity,
turns add up. -/
theorem C49_tile_rotate_group (t : Tile) (j k : Int) (c : Vec) (d : DirArg)
    (hd : d ≠ .str "clockwise") :
    ((t.rotate k c).rotate k c d).Same t ∧ ((t.rotate k c d).rotate k c).Same t ∧
    (t.rotate 4 c).Same t ∧ ((t.rotate j c).rotate k c).Same (t.rotate (j + k) c) ∧
    ((t.rotate j c d).rotate k c d).Same (t.rotate (j + k) c d) := by
  have rot : ∀ (m n : Nat) (x y p q : Rat),
      turned n (turned m x y p q).1 (turned m x y p q).2 p q = turned (m + n) x y p q := by
    intro m n x y p q
    have e1 : m % 4 = 0 ∨ m % 4 = 1 ∨ m % 4 = 2 ∨ m % 4 = 3 := by omega
    have e2 : n % 4 = 0 ∨ n % 4 = 1 ∨ n % 4 = 2 ∨ n % 4 = 3 := by omega
    have e3 : (m + n) % 4 = ((m % 4) + (n % 4)) % 4 := by omega
    rcases e1 with e1 | e1 | e1 | e1 <;> rcases e2 with e2 | e2 | e2 | e2 <;>
      simp [turned, e3, e1, e2, Prod.ext_iff] <;> grind
  have twice : ∀ (s : Tile) (j k : Int) (d e : DirArg),
      (((s.rotate j c d).rotate k c e).pos.x.val, ((s.rotate j c d).rotate k c e).pos.y.val) =
        turned (((if d = .str "clockwise" then j else -j) % 4).toNat +
          ((if e = .str "clockwise" then k else -k) % 4).toNat)
          s.pos.x.val s.pos.y.val c.x.val c.y.val := by
    intro s j k d e
    rw [(C49_tile_rotate_meaning _ _ _ _).2, ← rot]
    rw [← (C49_tile_rotate_meaning s j c d).2]
  have tmod : ∀ m n x y p q, m % 4 = n % 4 → turned m x y p q = turned n x y p q := by
    intro m n x y p q h; simp [turned, h]
  have tzero : ∀ m x y p q, m % 4 = 0 → turned m x y p q = (x, y) := by
    intro m x y p q h; simp [turned, h]
  refine ⟨⟨rfl, ?_⟩, ⟨rfl, ?_⟩, ⟨rfl, ?_⟩, ⟨rfl, ?_⟩, ⟨rfl, ?_⟩⟩
  · have := twice t k k (.str "clockwise") d
    rw [tzero _ _ _ _ _ (by simp [hd]; omega)] at this
    exact Prod.ext_iff.1 this
  · have := twice t k k d (.str "clockwise")
    rw [tzero _ _ _ _ _ (by simp [hd]; omega)] at this
    exact Prod.ext_iff.1 this
  · have := (C49_tile_rotate_meaning t 4 c (.str "clockwise")).2
    rw [tzero _ _ _ _ _ (by simp)] at this
    exact Prod.ext_iff.1 this
  · have h1 := twice t j k (.str "clockwise") (.str "clockwise")
    have h2 := (C49_tile_rotate_meaning t (j + k) c (.str "clockwise")).2
    rw [tmod _ (((if DirArg.str "clockwise" = .str "clockwise" then j + k else -(j+k)) % 4).toNat)
      _ _ _ _ (by simp; omega)] at h1
    exact Prod.ext_iff.1 (h1.trans h2.symm)
  · have h1 := twice t j k d d
    have h2 := (C49_tile_rotate_meaning t (j + k) c d).2
    rw [tmod _ (((if d = .str "clockwise" then j + k else -(j+k)) % 4).toNat)
      _ _ _ _ (by simp [hd]; omega)] at h1
    exact Prod.ext_iff.1 (h1.trans h2.symm)

/-- C49: the squared distance to the centre is kept. -/
theorem C49_tile_rotate_distance (t : Tile) (k : Int) (c : Vec) (d : DirArg) :
    let t' := t.rotate k c d
    (t'.pos.x.val - c.x.val) ^ 2 + (t'.pos.y.val - c.y.val) ^ 2 =
      (t.pos.x.val - c.x.val) ^ 2 + (t.pos.y.val - c.y.val) ^ 2 := by
  intro t'
  have h := (C49_tile_rotate_meaning t k c d).2
  generalize ((if d = .str "clockwise" then k else -k) % 4).toNat = n at h
  obtain ⟨h1, h2⟩ := Prod.ext_iff.1 h
  dsimp only at h1 h2
  show ((t.rotate k c d).pos.x.val - c.x.val) ^ 2 + ((t.rotate k c d).pos.y.val - c.y.val) ^ 2 = _
  rw [h1, h2]
  have e : n % 4 = 0 ∨ n % 4 = 1 ∨ n % 4 = 2 ∨ n % 4 = 3 := by omega
  rcases e with e | e | e | e <;> simp [turned, e] <;> grind

example : ((Tile.mk "concrete" ⟨.int 3, .int 1⟩).rotate 1).pos = ⟨.int (-1), .int 3⟩ ∧
    ((Tile.mk "concrete" ⟨.int 3, .int 1⟩).rotate 1 (dir := .int 0)).pos = ⟨.int 1, .int (-3)⟩ := by
  decide

end Verif
