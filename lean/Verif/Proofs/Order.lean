import Verif.Spec.Layers
import Verif.Proofs.World
/-!
# Helper lemmas: sorting a layer, selection boxes
-/
set_option autoImplicit false

namespace Verif
open Spec

theorem posLe_iff (p q : Vec) : posLe p q = true ↔ Before p q := by
  simp [posLe, Before, Num.lt_iff, Num.eq_iff, Num.le_iff]

theorem posLe_total (heap : Ref → Entity) :
    TotalPre (fun r s => posLe (heap r).pos (heap s).pos) := by
  constructor
  · intro a b
    simp only [posLe_iff, Before]
    grind
  · intro a b c
    simp only [posLe_iff, Before]
    grind

theorem tie_posLe (heap : Ref → Entity) (r s : Ref) :
    tie (fun r s => posLe (heap r).pos (heap s).pos) r s =
      decide (SamePos (heap s).pos (heap r).pos) := by
  rw [Bool.eq_iff_iff]
  simp only [tie, Bool.and_eq_true, posLe_iff, Before, decide_eq_true_eq, SamePos]
  grind

theorem sort_pos (w : World) (b : BpId) (s : Ref) : ((w.sort b).heap s).pos = (w.heap s).pos := by
  obtain ⟨n, h⟩ := sort_heap w b s
  rw [h]

/-- Sorting a layer brings it in order. -/
theorem sort_inOrder (w : World) (b : BpId) (hn : (w.bp b).objs.Nodup) :
    InOrder (w.sort b) b (w.bp b).objs := by
  have hs := sort_bp_self w b
  have hnd : (sortBy (fun r s => posLe (w.heap r).pos (w.heap s).pos) (w.bp b).objs).Nodup :=
    (sortBy_perm _ _).nodup_iff.2 hn
  refine ⟨sort_objs_perm w b, ?_, fun p => ?_, fun i hi => ?_⟩
  · rw [hs]
    refine (sortBy_sorted (posLe_total w.heap) _).imp ?_
    intro r s h
    rw [sort_pos, sort_pos]
    exact (posLe_iff _ _).1 h
  · rw [hs]
    dsimp only
    simp only [sort_pos]
    by_cases h : ∃ r ∈ (w.bp b).objs, SamePos (w.heap r).pos p
    · obtain ⟨r, hr, hp⟩ := h
      have := sortBy_filter_tie (posLe_total w.heap) r (w.bp b).objs
      have he : (tie (fun r s => posLe (w.heap r).pos (w.heap s).pos) r) =
          fun s => decide (SamePos (w.heap s).pos p) := by
        funext s
        rw [tie_posLe]
        exact decide_eq_decide.2 (by unfold SamePos at hp ⊢; rw [hp.1, hp.2])
      rwa [he] at this
    · have hf : ∀ s ∈ (w.bp b).objs, ¬ (decide (SamePos (w.heap s).pos p) = true) := by
        intro s hs h'
        exact h ⟨s, hs, by simpa using h'⟩
      rw [List.filter_eq_nil_iff.2 hf, List.filter_eq_nil_iff.2]
      intro s hs
      exact hf s ((mem_sortBy _).1 hs)
  · have hlen : i < (sortBy (fun r s => posLe (w.heap r).pos (w.heap s).pos) (w.bp b).objs).length := by
      rw [hs] at hi; exact hi
    have := reindexFrom_getElem (heap := w.heap) (i := 0) hnd hlen
    have hobj : ((w.sort b).bp b).objs[i] =
        (sortBy (fun r s => posLe (w.heap r).pos (w.heap s).pos) (w.bp b).objs)[i] := by
      simp [hs]
    rw [hobj]
    show (reindexFrom w.heap 0 _ _).auto = _
    rw [this]
    simp

/-! ## Selection boxes -/

theorem lookup_getItem {d : Dict} {k : String} {v : Val} :
    Dict.getItem d k = .ok v ↔ List.lookup k d = some v := by
  unfold Dict.getItem Dict.get?
  cases List.lookup k d <;> simp

theorem subscript_ok {v w : Val} {k : String} :
    v.subscript k = .ok w ↔ ∃ d, v = .dict d ∧ List.lookup k d = some w := by
  unfold Val.subscript
  cases v <;> simp [lookup_getItem]

theorem coord_ok {v : Val} {n : Num} : Vec.coord v = .ok n ↔ v = .num n := by
  unfold Vec.coord
  cases v <;> simp

theorem kwargs_ok {v : Val} {d : Dict} : v.kwargs = .ok d ↔ v = .dict d := by
  unfold Val.kwargs
  cases v <;> simp

namespace Entity

theorem boxCorner_ok {box : Val} {c : String} {v : Vec} :
    boxCorner box c = .ok v ↔ ∃ b d, box = .dict b ∧ List.lookup c b = some (.dict d) ∧
      List.lookup "x" d = some (.num v.x) ∧ List.lookup "y" d = some (.num v.y) := by
  unfold boxCorner
  constructor
  · intro h
    simp only [bind_eq_ok, subscript_ok, kwargs_ok] at h
    obtain ⟨u, ⟨b, hb, hu⟩, d, rfl, h⟩ := h
    split at h
    · simp at h
    · simp only [bind_eq_ok, Vec.new, lookup_getItem, coord_ok, pure_eq_ok, Except.ok.injEq] at h
      obtain ⟨o, ⟨x, hx, nx, hnx, y, hy, ny, hny, rfl⟩, h⟩ := h
      simp only [Except.ok.injEq] at h
      subst hnx hny h
      exact ⟨b, d, hb, hu, hx, hy⟩
  · rintro ⟨b, d, rfl, hd, hx, hy⟩
    have hne : d ≠ [] := by
      rintro rfl
      simp at hx
    simp [Val.subscript, Dict.getItem, Dict.get?, hd, Val.kwargs, hne, Vec.new, hx, hy, Vec.coord]

theorem protoBox_ok {env : Env} {name : String} {p q : Vec} :
    protoBox env name = .ok (p, q) ↔ HasBox env name p.x p.y q.x q.y := by
  unfold protoBox HasBox
  simp only [bind_eq_ok, lookup_getItem, subscript_ok, boxCorner_ok, pure_eq_ok, Except.ok.injEq,
    Prod.mk.injEq]
  constructor
  · rintro ⟨data, hd, box, ⟨d, rfl, hb⟩, a, ⟨b, lt, rfl, hlt, hx, hy⟩, a', ⟨b', rb, hbb, hrb, hx', hy'⟩,
      rfl, rfl⟩
    cases hbb
    exact ⟨d, b, lt, rb, hd, hb, hlt, hrb, hx, hy, hx', hy'⟩
  · rintro ⟨d, b, lt, rb, hd, hb, hlt, hrb, hx, hy, hx', hy'⟩
    exact ⟨_, hd, _, ⟨d, rfl, hb⟩, p, ⟨b, lt, rfl, hlt, hx, hy⟩, q, ⟨b, rb, rfl, hrb, hx', hy'⟩, rfl, rfl⟩

theorem HasBox.unique {env : Env} {name : String} {a b c d a' b' c' d' : Num}
    (h : HasBox env name a b c d) (h' : HasBox env name a' b' c' d') :
    a = a' ∧ b = b' ∧ c = c' ∧ d = d' := by
  obtain ⟨e, x, l, r, h1, h2, h3, h4, h5, h6, h7, h8⟩ := h
  obtain ⟨e', x', l', r', g1, g2, g3, g4, g5, g6, g7, g8⟩ := h'
  rw [h1] at g1; cases g1
  rw [h2] at g2; cases g2
  rw [h3] at g3; cases g3
  rw [h4] at g4; cases g4
  rw [h5] at g5; cases g5
  rw [h6] at g6; cases g6
  rw [h7] at g7; cases g7
  rw [h8] at g8; cases g8
  exact ⟨rfl, rfl, rfl, rfl⟩

theorem swaps_eq (n : Nat) (b : Vec × Vec) :
    swaps n b = if n % 2 = 1 then (b.1.yx, b.2.yx) else b := by
  induction n generalizing b with
  | zero => rfl
  | succ n ih =>
    rw [swaps, ih]
    rcases Nat.mod_two_eq_zero_or_one n with h | h
    · have : (n + 1) % 2 = 1 := by omega
      simp [h, this]
    · have : (n + 1) % 2 = 0 := by omega
      simp [h, this, Vec.yx]

theorem box_ok {env : Env} {e : Entity} {p q : Vec} :
    e.box env = .ok (p, q) ↔ ∃ a b, protoBox env e.name = .ok (a, b) ∧
      (p, q) = if e.dir.half.toNat % 2 = 1 then (a.yx, b.yx) else (a, b) := by
  unfold box
  simp only [bind_eq_ok, pure_eq_ok, Except.ok.injEq, swaps_eq]
  constructor
  · rintro ⟨⟨a, b⟩, h, h'⟩; exact ⟨a, b, h, h'.symm⟩
  · rintro ⟨a, b, h, h'⟩; exact ⟨(a, b), h, h'.symm⟩

theorem transposed_iff {d : Direction} (h : 0 ≤ d.n) : d.half.toNat % 2 = 1 ↔ Transposed d := by
  unfold Direction.half Transposed
  omega

/-- `collides` decides covering. -/
theorem collides_covers {env : Env} {e : Entity} {p : Vec} {c : Bool} (hd : 0 ≤ e.dir.n)
    (h : e.collides env (.vec p) = .ok c) : c = true ↔ Covers env e p.x.val p.y.val := by
  unfold collides at h
  simp only [bind_eq_ok, Vec.rsub, Vec.sub, Vec.lift, pure_eq_ok, Except.ok.injEq] at h
  obtain ⟨⟨lt, rb⟩, hb, q, rfl, rfl⟩ := h
  obtain ⟨a, b, hp, hbox⟩ := box_ok.1 hb
  have hbx := protoBox_ok.1 hp
  have hti := transposed_iff hd
  simp only [Vec.lt, Bool.and_eq_true, Num.lt_iff, Num.val_sub]
  unfold Covers
  constructor
  · intro h
    refine ⟨_, _, _, _, hbx, ?_⟩
    by_cases ht : Transposed e.dir
    · rw [if_pos (hti.2 ht)] at hbox
      simp only [Prod.mk.injEq] at hbox
      obtain ⟨rfl, rfl⟩ := hbox
      simp only [Vec.yx] at h
      right
      refine ⟨ht, ?_⟩
      grind
    · rw [if_neg (fun h => ht (hti.1 h))] at hbox
      simp only [Prod.mk.injEq] at hbox
      obtain ⟨rfl, rfl⟩ := hbox
      left
      refine ⟨ht, ?_⟩
      grind
  · rintro ⟨x0, y0, x1, y1, hb', h⟩
    obtain ⟨rfl, rfl, rfl, rfl⟩ := HasBox.unique hbx hb'
    rcases h with ⟨ht, h⟩ | ⟨ht, h⟩
    · rw [if_neg (fun h => ht (hti.1 h))] at hbox
      simp only [Prod.mk.injEq] at hbox
      obtain ⟨rfl, rfl⟩ := hbox
      grind
    · rw [if_pos (hti.2 ht)] at hbox
      simp only [Prod.mk.injEq] at hbox
      obtain ⟨rfl, rfl⟩ := hbox
      simp only [Vec.yx]
      grind

/-- With a selection box in the prototype data the test succeeds. -/
theorem collides_total {env : Env} {e : Entity} (p : Vec)
    (h : ∃ x0 y0 x1 y1, HasBox env e.name x0 y0 x1 y1) : ∃ c, e.collides env (.vec p) = .ok c := by
  obtain ⟨x0, y0, x1, y1, h⟩ := h
  have hp := (protoBox_ok (p := ⟨x0, y0⟩) (q := ⟨x1, y1⟩)).2 h
  simp [collides, box, hp, Vec.rsub, Vec.sub, Vec.lift]

/-- Without one it raises. -/
theorem collides_none {env : Env} {e : Entity} {p : Operand} {c : Bool}
    (h : e.collides env p = .ok c) : ∃ x0 y0 x1 y1, HasBox env e.name x0 y0 x1 y1 := by
  unfold collides at h
  simp only [bind_eq_ok] at h
  obtain ⟨⟨lt, rb⟩, hb, -⟩ := h
  obtain ⟨a, b, hp, -⟩ := box_ok.1 hb
  exact ⟨_, _, _, _, protoBox_ok.1 hp⟩

end Entity

/-- The list comprehension of `__getitem__`. -/
theorem filterCollides_ok {env : Env} {heap : Ref → Entity} {p : Vec} {l rs : List Ref}
    (hd : ∀ r ∈ l, 0 ≤ (heap r).dir.n) (h : filterCollides env heap (.vec p) l = .ok rs) :
    rs.Sublist l ∧ (∀ r ∈ l, Covers env (heap r) p.x.val p.y.val → r ∈ rs) ∧
      (∀ r ∈ rs, Covers env (heap r) p.x.val p.y.val) ∧
      (∀ r ∈ l, ∃ x0 y0 x1 y1, HasBox env (heap r).name x0 y0 x1 y1) := by
  induction l generalizing rs with
  | nil =>
    simp only [filterCollides, Except.ok.injEq] at h
    subst h
    simp
  | cons r l ih =>
    simp only [filterCollides, bind_eq_ok, pure_eq_ok, Except.ok.injEq] at h
    obtain ⟨c, hc, rest, hrest, rfl⟩ := h
    obtain ⟨h1, h2, h3, h4⟩ := ih (fun r hr => hd r (List.mem_cons_of_mem _ hr)) hrest
    have hcov := Entity.collides_covers (hd r (List.mem_cons_self ..)) hc
    have hbox := Entity.collides_none hc
    cases c
    · simp only [Bool.false_eq_true, if_false, false_iff] at hcov ⊢
      refine ⟨h1.cons r, ?_, h3, ?_⟩
      · intro s hs hcs
        rcases List.mem_cons.1 hs with rfl | hs
        · exact absurd hcs hcov
        · exact h2 s hs hcs
      · intro s hs
        rcases List.mem_cons.1 hs with rfl | hs
        · exact hbox
        · exact h4 s hs
    · simp only [if_true, true_iff] at hcov ⊢
      refine ⟨h1.cons_cons r, ?_, ?_, ?_⟩
      · intro s hs hcs
        rcases List.mem_cons.1 hs with rfl | hs
        · exact List.mem_cons_self ..
        · exact List.mem_cons_of_mem _ (h2 s hs hcs)
      · intro s hs
        rcases List.mem_cons.1 hs with rfl | hs
        · exact hcov
        · exact h3 s hs
      · intro s hs
        rcases List.mem_cons.1 hs with rfl | hs
        · exact hbox
        · exact h4 s hs

theorem filterCollides_total {env : Env} {heap : Ref → Entity} (p : Vec) {l : List Ref}
    (h : ∀ r ∈ l, ∃ x0 y0 x1 y1, HasBox env (heap r).name x0 y0 x1 y1) :
    ∃ rs, filterCollides env heap (.vec p) l = .ok rs := by
  induction l with
  | nil => exact ⟨[], rfl⟩
  | cons r l ih =>
    obtain ⟨rs, hrs⟩ := ih (fun s hs => h s (List.mem_cons_of_mem _ hs))
    obtain ⟨c, hc⟩ := Entity.collides_total p (h r (List.mem_cons_self ..))
    simp [filterCollides, hc, hrs]

/-! ## Directions stay in range -/

theorem Direction.new_range (z : Int) : 0 ≤ (Direction.new z).n ∧ (Direction.new z).n < 8 := by
  unfold Direction.new
  dsimp only
  omega

theorem Direction.ofVal_range {v : Val} {d : Direction} (h : Direction.ofVal v = .ok d) :
    0 ≤ d.n ∧ d.n < 8 := by
  unfold Direction.ofVal at h
  split at h
  · cases h; exact new_range _
  · rename_i q
    split at h
    · rename_i r hr
      cases h
      have h8 : (Num.int 8).val ≠ 0 := by simp
      unfold Num.mod at hr
      rw [if_neg h8] at hr
      simp only [Except.ok.injEq, Num.val_int, Num.val_flt] at hr
      have hf1 := Rat.floor_le (q / ((8 : Int) : Rat))
      have hf2 := Rat.lt_floor_add_one (q / ((8 : Int) : Rat))
      rw [Rat.intCast_add] at hf2
      rw [← hr]
      generalize ((q / ((8 : Int) : Rat)).floor : Int) = f at *
      have hlo : 0 ≤ q - ((8 : Int) : Rat) * (f : Rat) := by grind
      have hhi : q - ((8 : Int) : Rat) * (f : Rat) < ((8 : Int) : Rat) := by grind
      have ht : (Num.flt (q - ((8 : Int) : Rat) * (f : Rat))).trunc =
          (q - ((8 : Int) : Rat) * (f : Rat)).floor := if_pos hlo
      rw [ht]
      exact ⟨Rat.le_floor_iff.2 (by simpa using hlo), Rat.floor_lt_iff.2 hhi⟩
    · cases h
  · cases h; exact new_range _
  · cases h
  · cases h

theorem Direction.rotate_range (d : Direction) (n : Int) (t : Int) :
    0 ≤ (d.rotate n t).n ∧ (d.rotate n t).n < 8 := new_range _

theorem Entity.rotateChain_dir (amount : Int) (ms : List Mx) (e : Entity)
    (h : 0 ≤ e.dir.n ∧ e.dir.n < 8) :
    0 ≤ (rotateChain amount ms e).2.dir.n ∧ (rotateChain amount ms e).2.dir.n < 8 := by
  fun_induction rotateChain amount ms e with
  | case1 e => exact h
  | case2 e ms ih => exact ih (Direction.rotate_range _ _ _)
  | case3 ms e x h' => exact h
  | case4 ms e e' h' ih =>
    obtain ⟨a', rfl⟩ := rotateOrientation_frame h'
    exact ih h
  | case5 ms e m h1 h2 ih => exact ih h

/-- Directions of entities are always in `0 … 7`. -/
theorem Reachable.dir_range {env : Env} {w : World} (h : Reachable env w) (r : Ref) :
    0 ≤ (w.heap r).dir.n ∧ (w.heap r).dir.n < 8 := by
  refine h.entity (P := fun e => 0 ≤ e.dir.n ∧ e.dir.n < 8) (by decide) ?_ ?_ (fun _ _ h => h)
    (fun _ _ h => h) r
  · rintro env l e ⟨custom, kw, he⟩
    obtain ⟨-, -, name, position, number, e', -, -, -, hs, hf⟩ := Entity.new_ok.1 he
    obtain ⟨pos, dir, cb, a, -, hdir, -, -, rfl⟩ := Entity.finish_ok.1 hf
    exact Direction.ofVal_range hdir
  · intro env e e' he heff
    cases heff with
    | rotate n a d =>
      unfold Entity.rotate
      split
      · exact he
      · dsimp only
        split
        · exact he
        · exact Entity.rotateChain_dir _ _ _ he
    | setName c v => obtain ⟨_, _, _, hf⟩ := Entity.setName_frame env c e v; rw [hf]; exact he
    | setPos p => exact he
    | setDir v d hd => exact Direction.ofVal_range hd
    | setClass base ms k hb hk => exact he
    | setNumber n => exact he
    | setOri v o h ht => exact he
    | setAttr k v => obtain ⟨_, hf⟩ := Entity.setAttr_frame env e k v; rw [hf]; exact he
    | setControl k v => obtain ⟨_, hf⟩ := Entity.setControl_frame env e k v; rw [hf]; exact he
    | newControl v => obtain ⟨_, hf⟩ := Entity.newControl_frame env e v; rw [hf]; exact he

/-! ## Ids -/

theorem idEq_iff (n : Option Int) (v : Val) : idEq n v = true ↔ IdIs n v := by
  constructor
  · intro h
    cases n with
    | none => cases v <;> simp_all [idEq, IdIs.none]
    | some z =>
      cases v with
      | num m => exact .num z m (by simpa [idEq, Val.num?, Num.eq_iff] using h)
      | bool b =>
        cases b
        · have : (0 : Rat) = (z : Rat) := by simpa [idEq, Val.num?, Num.eq_iff] using h
          have : z = 0 := by exact_mod_cast this.symm
          subst this; exact .false
        · have : (1 : Rat) = (z : Rat) := by simpa [idEq, Val.num?, Num.eq_iff] using h
          have : z = 1 := by exact_mod_cast this.symm
          subst this; exact .true
      | none => simp [idEq, Val.num?] at h
      | str s => simp [idEq, Val.num?] at h
      | list l => simp [idEq, Val.num?] at h
      | dict d => simp [idEq, Val.num?] at h
  · intro h
    cases h with
    | none => rfl
    | num z n h => simp [idEq, Val.num?, Num.eq_iff, h]
    | true => decide
    | false => decide

theorem getById_some {w : World} {b : BpId} {id : Val} {r : Ref} :
    getById w b id = some r ↔ FirstWithId w (w.bp b).objs id r := by
  unfold getById FirstWithId
  rw [List.find?_eq_some_iff_append]
  simp only [idEq_iff]
  constructor
  · rintro ⟨h1, l, l', h2, h3⟩
    refine ⟨l, l', h2, h1, fun s hs => ?_⟩
    have := h3 s hs
    simpa [← idEq_iff] using this
  · rintro ⟨l, l', h2, h1, h3⟩
    refine ⟨h1, l, l', h2, fun s hs => ?_⟩
    have := h3 s hs
    simpa [← idEq_iff] using this

theorem getById_none {w : World} {b : BpId} {id : Val} :
    getById w b id = none ↔ ∀ r ∈ (w.bp b).objs, ¬ IdIs (w.heap r).number id := by
  unfold getById
  rw [List.find?_eq_none]
  simp only [idEq_iff]

end Verif
