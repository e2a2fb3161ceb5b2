import Verif.Proofs.LoadBase
import Verif.Proofs.Tidy
import Verif.Spec.Isolation
/-!
# Helper lemmas for the independence of blueprints
-/
set_option autoImplicit false

namespace Verif
open Spec

/-- The entities listed by `b` exist and belong to `b`. -/
def Home (b : BpId) (w : World) : Prop := ∀ r ∈ (w.bp b).objs, r < w.next ∧ (w.heap r).layer = some b

/-- From `w` to `w'` only blueprint `b` and entities of `b` change; with `k` entities of `b` remain in `b`. -/
structure Near (k : Bool) (b : BpId) (w w' : World) : Prop where
  others : ∀ c, c ≠ b → w'.bp c = w.bp c
  env : w'.env = w.env
  next : w.next ≤ w'.next
  heap : ∀ s, s < w.next → (w.heap s).layer ≠ some b → w'.heap s = w.heap s
  home : Home b w'
  kept : k = true → ∀ r, r < w.next → (w.heap r).layer = some b → (w'.heap r).layer = some b

theorem Near.refl {k : Bool} {b : BpId} {w : World} (h : Home b w) : Near k b w w :=
  ⟨fun _ _ => rfl, rfl, Nat.le_refl _, fun _ _ _ => rfl, h, fun _ _ _ h => h⟩

theorem Near.trans {k : Bool} {b : BpId} {u v w : World} (h : Near k b u v) (h' : Near k b v w) : Near k b u w where
  others c hc := (h'.others c hc).trans (h.others c hc)
  env := h'.env.trans h.env
  next := Nat.le_trans h.next h'.next
  heap s hs hl := by
    have e := h.heap s hs hl
    rw [h'.heap s (Nat.lt_of_lt_of_le hs h.next) (by rw [e]; exact hl), e]
  home := h'.home
  kept hk r hr hl := h'.kept hk r (Nat.lt_of_lt_of_le hr h.next) (h.kept hk r hr hl)

theorem Near.weaken {k : Bool} {b : BpId} {w w' : World} (h : Near true b w w') : Near k b w w' :=
  ⟨h.others, h.env, h.next, h.heap, h.home, fun _ => h.kept rfl⟩

/-- The computation only changes `b` and entities of `b`, if started where `P` holds. -/
def Within (k : Bool) (b : BpId) (P : World → Prop) {α} (x : M α) : Prop :=
  ∀ w, Home b w → P w → Near k b w (x w).2

section
variable {k : Bool} {b : BpId}

/-- A condition that calls on `b` do not invalidate. -/
def Stable (k : Bool) (b : BpId) (P : World → Prop) : Prop := ∀ w w', Near k b w w' → P w → P w'

theorem Stable.true : Stable k b (fun _ => True) := fun _ _ _ _ => trivial

theorem Stable.member {r : Ref} : Stable Bool.true b (fun w => r < w.next ∧ (w.heap r).layer = some b) :=
  fun _ _ h hp => ⟨Nat.lt_of_lt_of_le hp.1 h.next, h.kept rfl r hp.1 hp.2⟩

theorem Stable.all {α} {P : α → World → Prop} {l : List α} (h : ∀ a ∈ l, Stable k b (P a)) :
    Stable k b (fun w => ∀ a ∈ l, P a w) := fun w w' hn hp a ha => h a ha w w' hn (hp a ha)

theorem Within.bind {α β} {P : World → Prop} (hs : Stable k b P) {x : M α} {f : α → M β} (hx : Within k b P x)
    (hf : ∀ a, Within k b P (f a)) : Within k b P (x >>= f) := by
  intro w hw hp
  have := hx w hw hp
  rw [M.bind_eq]
  split
  · rename_i e v hv; rw [hv] at this; exact this
  · rename_i a v hv
    rw [hv] at this
    exact this.trans (hf a v this.home (hs w v this hp))

theorem Within.same {α} {P : World → Prop} {x : M α} (h : ∀ w, (x w).2 = w) : Within k b P x := by
  intro w hw _; rw [h w]; exact .refl hw

theorem Within.pure {α} {P : World → Prop} (a : α) : Within k b P (Pure.pure a : M α) := .same (fun _ => rfl)
theorem Within.lift {α} {P : World → Prop} (x : Except Exc α) : Within k b P (M.lift x) := .same (fun _ => rfl)
theorem Within.throw {α} {P : World → Prop} (x : Exc) : Within k b P (M.throw x : M α) := .same (fun _ => rfl)

/-- Reading the state. -/
theorem Within.get {β} {P : World → Prop} {f : World → M β} (h : ∀ v, Home b v → P v → Within k b (fun w => w = v) (f v)) :
    Within k b P (M.get >>= f) := by
  intro w hw hp
  rw [M.bind_get]
  exact h w hw hp w hw rfl

theorem Within.mono {α} {P Q : World → Prop} (h : ∀ w, Home b w → Q w → P w) {x : M α} (hx : Within k b P x) : Within k b Q x :=
  fun w hw hq => hx w hw (h w hw hq)

theorem Within.of {α} {P : World → Prop} {x : M α} (hx : Within k b (fun _ => True) x) : Within k b P x :=
  hx.mono (fun _ _ _ => trivial)

theorem Within.weaken {α} {P : World → Prop} {x : M α} (hx : Within true b P x) : Within k b P x :=
  fun w hw hp => (hx w hw hp).weaken

theorem Within.forEach {α} {P : World → Prop} (hs : Stable k b P) {f : α → M Unit} {l : List α}
    (h : ∀ a ∈ l, Within k b P (f a)) : Within k b P (M.forEach f l) := by
  induction l with
  | nil => exact Within.pure _
  | cons a l ih =>
    exact Within.bind hs (h a List.mem_cons_self) (fun _ => ih (fun c hc => h c (List.mem_cons_of_mem _ hc)))

theorem Within.mapL {α β} {P : World → Prop} (hs : Stable k b P) {f : α → M β} {l : List α}
    (h : ∀ a ∈ l, Within k b P (f a)) : Within k b P (M.mapL f l) := by
  induction l with
  | nil => exact Within.pure _
  | cons a l ih =>
    refine Within.bind hs (h a List.mem_cons_self) (fun x => ?_)
    exact Within.bind hs (ih (fun c hc => h c (List.mem_cons_of_mem _ hc))) (fun xs => Within.pure _)

/-- A loop over the entities listed by `b`. -/
theorem Within.overObjs {α} {f : Ref → M α} {v : World} (hv : Home b v)
    (h : ∀ r, Within true b (fun w => r < w.next ∧ (w.heap r).layer = some b) (f r)) :
    Within true b (fun w => w = v) (M.mapL f (v.bp b).objs) := by
  refine Within.mono (P := fun w => ∀ r ∈ (v.bp b).objs, r < w.next ∧ (w.heap r).layer = some b) ?_
    (Within.mapL (Stable.all (fun r _ => Stable.member)) (fun r hr => (h r).mono (fun w _ hp => hp r hr)))
  rintro w - rfl
  exact hv

theorem Within.eachObj {f : Ref → M Unit} {v : World} (hv : Home b v)
    (h : ∀ r, Within true b (fun w => r < w.next ∧ (w.heap r).layer = some b) (f r)) :
    Within true b (fun w => w = v) (M.forEach f (v.bp b).objs) := by
  refine Within.mono (P := fun w => ∀ r ∈ (v.bp b).objs, r < w.next ∧ (w.heap r).layer = some b) ?_
    (Within.forEach (Stable.all (fun r _ => Stable.member)) (fun r hr => (h r).mono (fun w _ hp => hp r hr)))
  rintro w - rfl
  exact hv

theorem Near.setBp {w : World} (hw : Home b w) {p : Bp} (hp : ∀ r ∈ p.objs, r ∈ (w.bp b).objs) :
    Near k b w (w.setBp b p) where
  others c hc := by rw [setBp_bp, if_neg hc]
  env := rfl
  next := Nat.le_refl _
  heap _ _ _ := rfl
  home r hr := by rw [setBp_bp_self] at hr; exact hw r (hp r hr)
  kept _ _ _ h := h

theorem Within.modBp {P : World → Prop} {f : Bp → Bp} (h : ∀ p, (f p).objs = p.objs) : Within k b P (modBp b f) :=
  fun w hw _ => Near.setBp hw (fun r hr => by rwa [h] at hr)

theorem Near.setEnt {w : World} (hw : Home b w) {r : Ref} {e : Entity} (hr : r < w.next)
    (hl : (w.heap r).layer = some b) (he : e.layer = some b) : Near k b w (w.setEnt r e) where
  others _ _ := rfl
  env := rfl
  next := Nat.le_refl _
  heap s _ hs := by
    rw [setEnt_heap]
    split
    · rename_i e'; subst e'; exact absurd hl hs
    · rfl
  home s hs := by
    refine ⟨(hw s hs).1, ?_⟩
    rw [setEnt_heap]
    split
    · exact he
    · exact (hw s hs).2
  kept _ s _ hs := by
    rw [setEnt_heap]
    split
    · exact he
    · exact hs

theorem Near.sort {w : World} (hw : Home b w) : Near k b w (w.sort b) where
  others c hc := sort_bp_other hc
  env := rfl
  next := Nat.le_refl _
  heap s _ hl := sort_heap_other (fun hs => hl (hw s hs).2)
  home s hs := by
    have := hw s ((sort_objs_perm w b).mem_iff.1 hs)
    obtain ⟨n, hn⟩ := sort_heap w b s
    exact ⟨this.1, by rw [hn]; exact this.2⟩
  kept _ s _ hs := by obtain ⟨n, hn⟩ := sort_heap w b s; rw [hn]; exact hs

theorem Near.alloc {w : World} (hw : Home b w) (e : Entity) : Near k b w (Verif.alloc e w).2 where
  others _ _ := rfl
  env := rfl
  next := Nat.le_succ _
  heap s hs _ := by
    show (if s = w.next then e else w.heap s) = _
    rw [if_neg (Nat.ne_of_lt hs)]
  home s hs := by
    obtain ⟨h1, h2⟩ := hw s hs
    refine ⟨Nat.lt_succ_of_lt h1, ?_⟩
    show (if s = w.next then e else w.heap s).layer = _
    rw [if_neg (Nat.ne_of_lt h1)]; exact h2
  kept _ s hs hl := by
    show (if s = w.next then e else w.heap s).layer = _
    rw [if_neg (Nat.ne_of_lt hs)]; exact hl

theorem Near.append {w : World} (hw : Home b w) {r : Ref} (hr : r < w.next) (hl : (w.heap r).layer = some b) :
    Near k b w (w.setBp b { w.bp b with objs := (w.bp b).objs ++ [r] }) where
  others c hc := by rw [setBp_bp, if_neg hc]
  env := rfl
  next := Nat.le_refl _
  heap _ _ _ := rfl
  home s hs := by
    rw [setBp_bp_self, List.mem_append, List.mem_singleton] at hs
    rcases hs with hs | rfl
    · exact hw s hs
    · exact ⟨hr, hl⟩
  kept _ _ _ h := h

/-! ## The functions of the model -/

variable {P : World → Prop}

theorem Within.newEntity (l : Option BpId) (kw : Dict) : Within k b P (newEntity l kw) := by
  intro w hw _
  cases hn : Verif.newEntity l kw w with
  | mk res w' =>
    cases res with
    | error e => rw [(newEntity_error hn).2]; exact .refl hw
    | ok r => obtain ⟨e, he, rfl, rfl⟩ := newEntity_ok hn; exact Near.alloc hw e

theorem Within.layerLoad (v : Val) : Within k b P (layerLoad b v) := by
  refine Within.of (Within.bind Stable.true (Within.lift _) (fun kw => ?_))
  intro w hw _
  cases hn : Verif.newEntity (some b) kw w with
  | mk res w' =>
    cases res with
    | error e => rw [M.bind_error hn, (newEntity_error hn).2]; exact .refl hw
    | ok r =>
      rw [M.bind_ok hn]
      obtain ⟨e, he, rfl, rfl⟩ := newEntity_ok hn
      have h1 : Near k b w _ := Near.alloc hw e
      refine h1.trans (Near.append h1.home (Nat.lt_succ_self _) ?_)
      show (if w.next = w.next then e else w.heap w.next).layer = some b
      rw [if_pos rfl]
      exact IsNew.layer ⟨_, _, he⟩

theorem Within.layerAdd {r : Ref} : Within k b (fun w => r < w.next ∧ (w.heap r).layer = some b) (layerAdd b (.ent r)) := by
  rintro w hw ⟨hr, hl⟩
  unfold Verif.layerAdd
  dsimp only
  rw [if_neg (by rw [hl]; simp)]
  split
  · exact .refl hw
  · have h1 : Near k b w _ := Near.append hw hr hl
    refine h1.trans ?_
    have h2 : Near k b (w.setBp b { w.bp b with objs := (w.bp b).objs ++ [r] }) _ :=
      Near.setEnt h1.home (r := r) (e := { w.heap r with layer := some b }) hr hl rfl
    exact h2.trans (Near.sort h2.home)

theorem Within.layerMake (kw : Dict) : Within k b P (layerMake b kw) := by
  intro w hw _
  unfold Verif.layerMake
  cases hn : Verif.newEntity (some b) kw w with
  | mk res w' =>
    cases res with
    | error e => rw [M.bind_error hn, (newEntity_error hn).2]; exact .refl hw
    | ok r =>
      rw [M.bind_ok hn]
      obtain ⟨e, he, rfl, rfl⟩ := newEntity_ok hn
      have h1 : Near k b w _ := Near.alloc hw e
      refine h1.trans ?_
      have h2 : (({ w.setEnt w.next e with next := w.next + 1 } : World).heap w.next).layer = some b := by
        show (if w.next = w.next then e else w.heap w.next).layer = some b
        rw [if_pos rfl]
        exact IsNew.layer ⟨_, _, he⟩
      have h3 := Within.layerAdd (k := k) (b := b) (r := w.next) _ h1.home ⟨Nat.lt_succ_self _, h2⟩
      rw [M.bind_eq]
      split
      · rename_i x v hx
        have : Verif.layerAdd b (.ent w.next) (Verif.alloc e w).2 = (.error x, v) := hx
        rw [this] at h3; exact h3
      · rename_i x v hx
        have : Verif.layerAdd b (.ent w.next) (Verif.alloc e w).2 = (.ok x, v) := hx
        rw [this] at h3; exact h3

theorem Within.layerDrop (r : Ref) : Within false b (fun w => (w.bp b).objs.Nodup) (layerDrop b r) := by
  intro w hw hn
  unfold Verif.layerDrop
  split
  · rename_i hr
    exact {
      others := fun c hc => by rw [setEnt_bp, setBp_bp, if_neg hc]
      env := rfl
      next := Nat.le_refl _
      heap := fun s _ hs => by
        rw [setEnt_heap]
        split
        · rename_i e; subst e; exact absurd (hw s hr).2 hs
        · rfl
      home := fun s hs => by
        rw [setEnt_bp, setBp_bp_self] at hs
        obtain ⟨h1, h2⟩ := (List.Nodup.mem_erase_iff hn).1 hs
        rw [setEnt_heap, if_neg h1]
        exact hw s h2
      kept := fun h => by cases h }
  · exact .refl hw

theorem nodup_drop (b : BpId) (r : Ref) (w : World) (h : (w.bp b).objs.Nodup) : ((layerDrop b r w).2.bp b).objs.Nodup := by
  unfold layerDrop
  split
  · rw [setEnt_bp, setBp_bp_self]; exact h.erase r
  · exact h

theorem Within.layerGet (c : BpId) (p : Operand) : Within k b P (layerGet c p) := by
  refine Within.same (fun w => ?_)
  unfold Verif.layerGet
  split <;> rfl

theorem Within.dropAll (l : List Ref) : Within false b (fun w => (w.bp b).objs.Nodup) (M.forEach (Verif.layerDrop b) l) := by
  induction l with
  | nil => exact Within.pure _
  | cons r l ih =>
    intro w hw hn
    have h1 := Within.layerDrop (b := b) r w hw hn
    have h2 := nodup_drop b r w hn
    show Near _ _ _ ((Verif.layerDrop b r >>= fun _ => M.forEach (Verif.layerDrop b) l) w).2
    rw [M.bind_eq]
    split
    · rename_i e v hv; rw [hv] at h1; exact h1
    · rename_i a v hv
      rw [hv] at h1 h2
      exact h1.trans (ih v h1.home h2)

theorem Within.layerDelAt (p : Operand) : Within false b (fun w => (w.bp b).objs.Nodup) (layerDelAt b p) := by
  intro w hw hn
  have e : (Verif.layerGet b p w).2 = w := by unfold Verif.layerGet; split <;> rfl
  unfold Verif.layerDelAt
  rw [M.bind_eq]
  split
  · rename_i x v hv; rw [hv] at e; cases e; exact .refl hw
  · rename_i l v hv; rw [hv] at e; dsimp only at e; subst e; exact Within.dropAll l _ hw hn

theorem Within.getConnections {r : Ref} : Within k b (fun w => r < w.next ∧ (w.heap r).layer = some b) (getConnections r) := by
  rintro w hw ⟨hr, hl⟩
  unfold Verif.getConnections
  rw [hl]
  dsimp only
  split
  · exact Near.setBp hw (fun _ h => h)
  · split <;> exact Near.setBp hw (fun _ h => h)

theorem Within.entToJson {r : Ref} : Within true b (fun w => r < w.next ∧ (w.heap r).layer = some b) (entToJson r) := by
  refine Within.get (fun (v : World) hv hp => ?_)
  refine Within.mono (P := fun (w : World) => r < w.next ∧ (w.heap r).layer = some b) (by intro w _ hw; rw [hw]; exact hp) ?_
  refine Within.bind Stable.member ?_ (fun c => ?_)
  · refine Within.bind Stable.member Within.getConnections (fun _ => ?_)
    exact Within.get (fun _ _ _ => Within.lift _)
  · exact Within.bind Stable.member (Within.lift _) (fun _ => Within.pure _)

theorem Within.toJson : Within true b P (toJson b) := by
  refine Within.get (fun v hv _ => ?_)
  intro w hw hwv
  have h1 := Within.overObjs hv (fun r => Within.entToJson (r := r)) w hw hwv
  dsimp only
  rw [M.bind_eq]
  split
  · rename_i e u hu; rw [hu] at h1; exact h1
  · rename_i a u hu
    rw [hu] at h1
    refine h1.trans ?_
    exact Within.bind Stable.true (Within.lift _) (fun _ => Within.pure _) u h1.home trivial

theorem Within.entRotate {n : Int} {a : Operand} {d : DirArg} {r : Ref} :
    Within k b (fun w => r < w.next ∧ (w.heap r).layer = some b) (entRotate n a d r) := by
  rintro w hw ⟨hr, hl⟩
  refine Near.setEnt hw hr hl ?_
  rw [EntEff.layer (n := false) (v := true) (env := w.env) (.rotate n a d rfl)]
  exact hl

theorem Within.sortM : Within k b P (M.modify (·.sort b)) := fun _ hw _ => Near.sort hw

theorem Within.eachThen {f : Ref → M Unit} {x : M Unit}
    (h : ∀ r, Within true b (fun w => r < w.next ∧ (w.heap r).layer = some b) (f r))
    (hx : Within true b (fun _ => True) x) {v : World} (hv : Home b v) :
    Within true b (fun w => w = v) (M.forEach f (v.bp b).objs >>= fun _ => x) := by
  intro w hw hwv
  have h1 := Within.eachObj hv h w hw hwv
  rw [M.bind_eq]
  split
  · rename_i e u hu; rw [hu] at h1; exact h1
  · rename_i a u hu; rw [hu] at h1; exact h1.trans (hx u h1.home trivial)

theorem Within.layerRotate (n : Int) (a : Option Operand) (d : Option DirArg) : Within true b P (layerRotate b n a d) :=
  Within.get (fun _ hv _ => Within.eachThen (fun _ => Within.entRotate) Within.sortM hv)

theorem Within.tilesSort : Within k b P (tilesSort b) := Within.modBp (fun _ => rfl)

theorem Within.bpRotate (n : Int) (a : Option Operand) (d : Option DirArg) : Within true b P (bpRotate b n a d) := by
  refine Within.of (Within.bind Stable.true (Within.layerRotate n a d) (fun _ => ?_))
  refine Within.bind Stable.true ?_ (fun _ => Within.tilesSort)
  exact fun w hw _ => Near.setBp hw (fun _ h => h)

theorem Within.shiftEnt {c : Operand} {r : Ref} :
    Within k b (fun w => r < w.next ∧ (w.heap r).layer = some b) (shiftEnt c r) := by
  rintro w hw ⟨hr, hl⟩
  unfold Verif.shiftEnt
  split
  · exact .refl hw
  · exact Near.setEnt hw hr hl hl

theorem Within.recenter (a : Option Operand) : Within true b P (recenter b a) := by
  refine Within.get (fun v hv _ => ?_)
  intro w hw hwv
  rw [M.lift_bind]
  split
  · rw [M.lift_bind]
    split
    · split
      · exact .refl hw
      · exact Within.eachThen (fun _ => Within.shiftEnt) (Within.throw _) hv w hw hwv
    · exact .refl hw
  · exact .refl hw

theorem Within.loadIcon (i : Val) : Within k b P (loadIcon b i) := by
  refine Within.get (fun v hv _ => Within.of ?_)
  refine Within.bind Stable.true (Within.lift _) (fun _ => ?_)
  refine Within.bind Stable.true (Within.lift _) (fun _ => ?_)
  refine Within.bind Stable.true (Within.lift _) (fun _ => ?_)
  refine Within.bind Stable.true (Within.lift _) (fun _ => ?_)
  refine Within.bind Stable.true (Within.lift _) (fun _ => ?_)
  exact Within.modBp (fun _ => rfl)

theorem Within.loadRef (r : Ref) (s c : String) (v : Val) : Within k b P (loadRef b r s c v) := by
  refine Within.get (fun v hv _ => Within.of ?_)
  refine Within.bind Stable.true (Within.lift _) (fun _ => ?_)
  refine Within.bind Stable.true (Within.lift _) (fun _ => ?_)
  refine Within.bind Stable.true (Within.lift _) (fun _ => ?_)
  exact Within.modBp (fun _ => rfl)

theorem Within.loadWires (r : Ref) : Within k b P (loadWires b r) := by
  refine Within.get (fun v hv _ => Within.of ?_)
  split
  · exact Within.pure _
  · refine Within.bind Stable.true (Within.lift _) (fun _ => Within.forEach Stable.true (fun _ _ => ?_))
    refine Within.bind Stable.true (Within.lift _) (fun _ => Within.forEach Stable.true (fun _ _ => ?_))
    exact Within.bind Stable.true (Within.lift _) (fun _ => Within.forEach Stable.true (fun _ _ => Within.loadRef _ _ _ _))

theorem Within.parseConnections : Within true b P (parseConnections b) := by
  refine Within.of (Within.bind Stable.true (Within.modBp (by intro _; rfl)) (fun _ => ?_))
  refine Within.get (fun v hv _ => ?_)
  refine Within.mono (P := fun w => ∀ r ∈ (v.bp b).objs, r < w.next ∧ (w.heap r).layer = some b)
    (by rintro w - rfl; exact hv) ?_
  have hs : Stable true b (fun w => ∀ r ∈ (v.bp b).objs, r < w.next ∧ (w.heap r).layer = some b) :=
    Stable.all (fun _ _ => Stable.member)
  refine Within.bind hs (Within.forEach hs (fun r _ => Within.loadWires r)) (fun _ => ?_)
  refine Within.forEach hs (fun r hr => Within.bind hs ?_ (fun _ => Within.pure _))
  exact Within.getConnections.mono (fun w _ hp => hp r hr)

theorem Within.tileLoad (v : Val) : Within k b P (tileLoad b v) := by
  refine Within.same (fun w => ?_)
  obtain ⟨e, he⟩ := tileLoad_error b v w
  rw [he]

theorem Within.loadColor (v : Val) : Within k b P (loadColor b v) := by
  unfold Verif.loadColor
  split
  · exact Within.pure _
  · exact Within.of (Within.bind Stable.true (Within.lift _) (fun _ => Within.modBp (by intro _; rfl)))

theorem Within.setIcon (i : Nat) (v : Val) : Within k b P (setIcon b i v) := by
  refine Within.get (fun w hw _ => Within.of ?_)
  split
  · exact Within.throw _
  · exact Within.throw _
  · exact Within.bind Stable.true (Within.lift _) (fun _ => Within.modBp (by intro _; rfl))

theorem Within.dropIcon (i : Nat) : Within k b P (dropIcon b i) := by
  refine Within.get (fun w hw _ => Within.of ?_)
  split
  · exact Within.modBp (by intro _; rfl)
  · exact Within.throw _

theorem Within.addSchedule (v : Val) : Within k b P (addSchedule b v) :=
  Within.get (fun _ _ _ => Within.of (Within.bind Stable.true (Within.lift _) (fun _ => Within.modBp (by intro _; rfl))))

theorem Within.load (v : Val) : Within true b P (load b v) := by
  refine Within.of (Within.bind Stable.true (Within.lift _) (fun _ => ?_))
  refine Within.bind Stable.true (Within.modBp (by intro _; rfl)) (fun _ => ?_)
  refine Within.bind Stable.true (Within.loadColor _) (fun _ => ?_)
  refine Within.bind Stable.true (Within.modBp (by intro _; rfl)) (fun _ => ?_)
  refine Within.bind Stable.true (Within.lift _) (fun _ => ?_)
  refine Within.bind Stable.true (Within.forEach Stable.true (fun _ _ => Within.loadIcon _)) (fun _ => ?_)
  refine Within.bind Stable.true (Within.lift _) (fun _ => ?_)
  refine Within.bind Stable.true (Within.forEach Stable.true (fun _ _ => Within.layerLoad _)) (fun _ => ?_)
  refine Within.bind Stable.true Within.sortM (fun _ => ?_)
  refine Within.bind Stable.true Within.parseConnections (fun _ => ?_)
  refine Within.bind Stable.true (Within.lift _) (fun _ => ?_)
  refine Within.bind Stable.true (Within.forEach Stable.true (fun _ _ => Within.tileLoad _)) (fun _ => ?_)
  refine Within.bind Stable.true Within.tilesSort (fun _ => ?_)
  refine Within.bind Stable.true (Within.lift _) (fun _ => ?_)
  refine Within.get (fun _ _ _ => ?_)
  exact Within.of (Within.bind Stable.true (Within.lift _) (fun _ => Within.modBp (by intro _; rfl)))

theorem Within.setLabel (l : Val) (c : Color ⊕ Val) : Within k b P (setLabel b l c) := by
  refine Within.of (Within.bind Stable.true (Within.modBp (by intro _; rfl)) (fun _ => ?_))
  split
  · exact Within.modBp (by intro _; rfl)
  · exact Within.pure _
  · exact Within.bind Stable.true (Within.lift _) (fun _ => Within.modBp (by intro _; rfl))

theorem Within.tilesMake (kw : Dict) : Within k b P (tilesMake b kw) := by
  refine Within.same (fun w => ?_)
  obtain ⟨e, he⟩ := tilesMake_error b kw w
  rw [he]

theorem Within.connect {r : Ref} {t : Option Ref} {f s : Val} {c : String} :
    Within k b (fun w => (w.heap r).layer = some b) (connect r t f s c) := by
  intro w hw hl
  unfold Verif.connect
  split
  · exact .refl hw
  · rw [hl]
    exact Near.setBp hw (fun _ h => h)

theorem Within.drop {α} {x : M α} (h : Within k b (fun _ => True) x) : Within k b P (do let _ ← x; return () : M Unit) :=
  Within.of (Within.bind Stable.true h (fun _ => Within.pure _))

end

/-! ## Calls -/

/-- Blueprint `c` and its entities are as before, and so are the entities without a layer that satisfy `F`. -/
structure Calm (F : Ref → Prop) (c : BpId) (w w' : World) : Prop extends Untouched w w' c where
  next : w.next ≤ w'.next
  loose : ∀ r, r < w.next → (w.heap r).layer = none → F r → w'.heap r = w.heap r

theorem Near.calm {k : Bool} {b c : BpId} {w w' : World} (h : Near k b w w') (hc : b ≠ c) (F : Ref → Prop) :
    Calm F c w w' where
  blueprint := h.others c (fun e => hc e.symm)
  entities r hr hl := h.heap r hr (by rw [hl]; intro e; exact hc (Option.some.inj e).symm)
  next := h.next
  loose r hr hl _ := h.heap r hr (by rw [hl]; intro e; cases e)

theorem Calm.refl {F : Ref → Prop} {c : BpId} {w : World} : Calm F c w w :=
  ⟨⟨rfl, fun _ _ _ => rfl⟩, Nat.le_refl _, fun _ _ _ _ => rfl⟩

theorem Calm.setEnt {F : Ref → Prop} {c : BpId} {w : World} {r : Ref} (hl : (w.heap r).layer ≠ some c) (hF : ¬ F r)
    (e : Entity) : Calm F c w (w.setEnt r e) where
  blueprint := rfl
  entities s _ hs := by
    rw [setEnt_heap]
    split
    · rename_i e'; subst e'; exact absurd hs hl
    · rfl
  next := Nat.le_refl _
  loose s _ _ hs := by
    rw [setEnt_heap]
    split
    · rename_i e'; subst e'; exact absurd hs hF
    · rfl

theorem Calm.add {w : World} (ho : Owned w) {b c : BpId} {r : Ref} (hc : b ≠ c) (hr : r < w.next) :
    Calm (fun s => r ≠ s) c w (layerAdd b (.ent r) w).2 := by
  have hb : Home b w := fun s hs => ⟨ho.exist b s hs, ho.layer b s hs⟩
  cases hl : (w.heap r).layer with
  | some d =>
    by_cases e : d = b
    · subst e; exact (Within.layerAdd (k := true) w hb ⟨hr, hl⟩).calm hc _
    · unfold layerAdd
      dsimp only
      rw [if_pos (by rw [hl]; exact ⟨by simp, fun h => e (Option.some.inj h)⟩)]
      exact .refl
  | none =>
    have h1 : Home b (w.setEnt r { w.heap r with layer := some b }) := by
      intro s hs
      refine ⟨(hb s hs).1, ?_⟩
      rw [setEnt_heap]
      split
      · rfl
      · exact (hb s hs).2
    have h2 := (Near.append (k := true) h1 (r := r) hr (by rw [setEnt_heap_self])).calm hc (fun s => r ≠ s)
    have h3 : Home b ((w.setEnt r { w.heap r with layer := some b }).setBp b
        { w.bp b with objs := (w.bp b).objs ++ [r] }) := (Near.append (k := true) h1 (r := r) hr (by rw [setEnt_heap_self])).home
    have h4 := (Near.sort (k := true) h3).calm hc (fun s => r ≠ s)
    have key : ∀ s, s ≠ r → (w.setEnt r { w.heap r with layer := some b }).heap s = w.heap s := by
      intro s hs; rw [setEnt_heap, if_neg hs]
    unfold layerAdd
    dsimp only
    rw [if_neg (by rw [hl]; simp)]
    split
    · exact .refl
    · exact {
        blueprint := h4.blueprint.trans h2.blueprint
        entities := fun s hs hls => by
          have hsr : s ≠ r := by rintro rfl; rw [hl] at hls; cases hls
          have a2 := h4.entities s hs (by rw [setBp_heap, key s hsr]; exact hls)
          exact a2.trans (key s hsr)
        next := Nat.le_refl _
        loose := fun s hs hls hsr => by
          have hsr : s ≠ r := fun e => hsr e.symm
          have a2 := h4.loose s hs (by rw [setBp_heap, key s hsr]; exact hls) (fun e => hsr e.symm)
          exact a2.trans (key s hsr) }

theorem Calm.alloc {F : Ref → Prop} {c : BpId} {w : World} (e : Entity) : Calm F c w (Verif.alloc e w).2 where
  blueprint := rfl
  entities s hs _ := by
    show (if s = w.next then e else w.heap s) = _
    rw [if_neg (Nat.ne_of_lt hs)]
  next := Nat.le_succ _
  loose s hs _ _ := by
    show (if s = w.next then e else w.heap s) = _
    rw [if_neg (Nat.ne_of_lt hs)]

theorem importTable_rest (v : Val) (a : Bool) (key : String) (t : Table) (w₀ : World) :
    Keeps (fun w => w.bp = w₀.bp ∧ w.heap = w₀.heap ∧ w.next = w₀.next) (importTable v a key t) := by
  refine Keeps.bind (Keeps.lift _) (fun x => ?_)
  split
  · exact ⟨fun _ h => h⟩
  · exact Keeps.throw _

theorem importProtos_rest (v : Val) (a : Bool) (w₀ : World) :
    Keeps (fun w => w.bp = w₀.bp ∧ w.heap = w₀.heap ∧ w.next = w₀.next) (importProtos v a) := by
  refine Keeps.bind (importTable_rest v a _ _ w₀) (fun _ => ?_)
  refine Keeps.bind (importTable_rest v a _ _ w₀) (fun _ => ?_)
  refine Keeps.bind (importTable_rest v a _ _ w₀) (fun _ => ?_)
  refine Keeps.bind (importTable_rest v a _ _ w₀) (fun _ => ?_)
  exact importTable_rest v a _ _ w₀

theorem Calm.of_eq {F : Ref → Prop} {c : BpId} {w w' : World} (h1 : w'.bp = w.bp) (h2 : w'.heap = w.heap)
    (h3 : w'.next = w.next) : Calm F c w w' :=
  ⟨⟨by rw [h1], fun _ _ _ => by rw [h2]⟩, Nat.le_of_eq h3.symm, fun _ _ _ _ => by rw [h2]⟩

/-- A call on an entity without a layer that needs the blueprint changes nothing. -/
theorem getConnections_loose {r : Ref} {w : World} (h : (w.heap r).layer = none) : (getConnections r w).2 = w := by
  unfold getConnections
  rw [h]

theorem connect_loose {r : Ref} {t : Option Ref} {f s : Val} {c : String} {w : World} (h : (w.heap r).layer = none) :
    (connect r t f s c w).2 = w := by
  unfold connect
  split
  · rfl
  · rw [h]

theorem entToJson_loose {r : Ref} {w : World} (h : (w.heap r).layer = none) : (entToJson r w).2 = w := by
  have e : getConnections r w = (.error .attributeError, w) := by unfold getConnections; rw [h]
  unfold entToJson connectionsToJson
  rw [M.bind_get, M.bind_error (M.bind_error e)]

theorem Op.calm {w : World} (ho : Owned w) {op : Op} (hr : op.refsOk w) {c : BpId} (hc : ¬ Concerns w op c) :
    Calm (fun r => ¬ Handles op r) c w (op.run w).2 := by
  have home : ∀ b, Home b w := fun b s hs => ⟨ho.exist b s hs, ho.layer b s hs⟩
  have near : ∀ {k : Bool} {b : BpId} {w' : World}, Near k b w w' → b ≠ c → Calm (fun r => ¬ Handles op r) c w w' :=
    fun h hc => h.calm hc _
  have dropped : ∀ {α} (x : M α), ((do let _ ← x; return () : M Unit) w).2 = (x w).2 := by
    intro α x
    rw [M.bind_eq]
    split <;> rename_i h <;> rw [h] <;> rfl
  have atLayer : ∀ {r : Ref} {w' : World}, (w.heap r).layer ≠ some c → ((w.heap r).layer = none → w' = w) →
      (∀ b, (w.heap r).layer = some b → Near true b w w') → Calm (fun r => ¬ Handles op r) c w w' := by
    intro r w' h1 h2 h3
    cases hl : (w.heap r).layer with
    | none => rw [h2 hl]; exact .refl
    | some b => exact near (h3 b hl) (fun e => h1 (by rw [hl, e]))
  cases op with
  | newEntity l kw =>
    rw [show ((Op.newEntity l kw).run w).2 = (Verif.newEntity l kw w).2 from dropped _]
    cases hn : Verif.newEntity l kw w with
    | mk res w' =>
      cases res with
      | error e => rw [(newEntity_error hn).2]; exact .refl
      | ok r => obtain ⟨e, he, rfl, rfl⟩ := newEntity_ok hn; exact Calm.alloc e
  | make b kw =>
    rw [show ((Op.make b kw).run w).2 = (layerMake b kw w).2 from dropped _]
    exact near (Within.layerMake (k := true) (P := fun _ => True) kw w (home b) trivial) hc
  | add b o =>
    cases o with
    | ent r =>
      have := Calm.add ho (c := c) (b := b) (r := r) hc hr
      exact ⟨this.toUntouched, this.next, fun s h1 h2 h3 => this.loose s h1 h2 h3⟩
    | tile _ => exact .refl
    | other => exact .refl
  | remove b o =>
    cases o with
    | ent r => exact near (Within.layerDrop r w (home b) (ho.nodup b)) hc
    | tile _ => exact .refl
    | other => exact .refl
  | delObj b r => exact near (Within.layerDrop r w (home b) (ho.nodup b)) hc
  | delAt b p => exact near (Within.layerDelAt p w (home b) (ho.nodup b)) hc
  | get b p =>
    rw [show ((Op.get b p).run w).2 = (layerGet b p w).2 from dropped _]
    exact near (Within.layerGet (k := true) (P := fun _ => True) b p w (home b) trivial) hc
  | rotate b n a d => exact near (Within.bpRotate (P := fun _ => True) n a d w (home b) trivial) hc
  | entRotate r n a d => exact Calm.setEnt hc (fun h => h rfl) _
  | connect r t f s x =>
    rw [show ((Op.connect r t f s x).run w).2 = (Verif.connect r t f s x w).2 from dropped _]
    exact atLayer hc connect_loose (fun b hl => Within.connect w (home b) hl)
  | flip b i => exact near (Within.modBp (k := true) (P := fun _ => True) (by intro _; rfl) w (home b) trivial) hc
  | flipColor b i => exact near (Within.modBp (k := true) (P := fun _ => True) (by intro _; rfl) w (home b) trivial) hc
  | getConnections r =>
    rw [show ((Op.getConnections r).run w).2 = (Verif.getConnections r w).2 from dropped _]
    exact atLayer hc getConnections_loose (fun b hl => Within.getConnections w (home b) ⟨hr, hl⟩)
  | entToJson r =>
    rw [show ((Op.entToJson r).run w).2 = (Verif.entToJson r w).2 from dropped _]
    exact atLayer hc entToJson_loose (fun b hl => Within.entToJson w (home b) ⟨hr, hl⟩)
  | toJson b =>
    rw [show ((Op.toJson b).run w).2 = (Verif.toJson b w).2 from dropped _]
    exact near (Within.toJson (P := fun _ => True) w (home b) trivial) hc
  | load b d => exact near (Within.load (P := fun _ => True) d w (home b) trivial) hc
  | recenter b a => exact near (Within.recenter (P := fun _ => True) a w (home b) trivial) hc
  | setPos r v =>
    show Calm _ c w (Verif.setPos r v w).2
    unfold Verif.setPos
    split
    · exact .refl
    · exact .refl
    · exact Calm.setEnt hc (fun h => h rfl) _
  | setDir r v =>
    show Calm _ c w (Verif.setDir r v w).2
    unfold Verif.setDir
    split
    · exact .refl
    · exact Calm.setEnt hc (fun h => h rfl) _
  | setName r v => exact Calm.setEnt hc (fun h => h rfl) _
  | addMixins r ms => exact Calm.setEnt hc (fun h => h rfl) _
  | setMixins r ms => exact Calm.setEnt hc (fun h => h rfl) _
  | setNumber r n => exact Calm.setEnt hc (fun h => h rfl) _
  | setOrientation r v =>
    show Calm _ c w (Verif.setOrientation r v w).2
    unfold Verif.setOrientation
    split
    · split
      · exact .refl
      · exact Calm.setEnt hc (fun h => h rfl) _
    · exact .refl
  | setAttr r x v => exact Calm.setEnt hc (fun h => h rfl) _
  | setControl r x v => exact Calm.setEnt hc (fun h => h rfl) _
  | newControl r v => exact Calm.setEnt hc (fun h => h rfl) _
  | setLabel b l x => exact near (Within.setLabel (k := true) (P := fun _ => True) l x w (home b) trivial) hc
  | setProtos t d a => exact Calm.of_eq rfl rfl rfl
  | importProtos d a =>
    obtain ⟨h1, h2, h3⟩ := (importProtos_rest d a w).1 w ⟨rfl, rfl, rfl⟩
    exact Calm.of_eq h1 h2 h3
  | setCustom b x => exact near (Within.modBp (k := true) (P := fun _ => True) (by intro _; rfl) w (home b) trivial) hc
  | tilesMake b kw =>
    rw [show ((Op.tilesMake b kw).run w).2 = (Verif.tilesMake b kw w).2 from dropped _]
    exact near (Within.tilesMake (k := true) (P := fun _ => True) kw w (home b) trivial) hc
  | tilesAdd b o => cases o <;> exact .refl
  | tilesRemove b o =>
    show Calm _ c w (Verif.tilesRemove b o w).2
    unfold Verif.tilesRemove
    split
    · split
      · exact near (Near.setBp (k := true) (home b) (fun _ h => h)) hc
      · exact .refl
    · exact .refl
  | tilesGet b p =>
    rw [show ((Op.tilesGet b p).run w).2 = (Verif.tilesGet b p w).2 from dropped _]
    exact .refl
  | sort b => exact near (Within.sortM (k := true) (P := fun _ => True) w (home b) trivial) hc
  | parse b => exact near (Within.parseConnections (P := fun _ => True) w (home b) trivial) hc
  | rotateLayer b n a d => exact near (Within.layerRotate (P := fun _ => True) n a d w (home b) trivial) hc
  | setItem b v => exact near (Within.modBp (k := true) (P := fun _ => True) (by intro _; rfl) w (home b) trivial) hc
  | setVersion b v => exact near (Within.modBp (k := true) (P := fun _ => True) (by intro _; rfl) w (home b) trivial) hc
  | setStrict b s => exact near (Within.modBp (k := true) (P := fun _ => True) (by intro _; rfl) w (home b) trivial) hc
  | setIcon b i v => exact near (Within.setIcon (k := true) (P := fun _ => True) i v w (home b) trivial) hc
  | dropIcon b i => exact near (Within.dropIcon (k := true) (P := fun _ => True) i w (home b) trivial) hc
  | addSchedule b v => exact near (Within.addSchedule (k := true) (P := fun _ => True) v w (home b) trivial) hc

/-- A call concerns at most one blueprint. -/
theorem concerns_one {w : World} {op : Op} {c d : BpId} (h : Concerns w op c) (h' : Concerns w op d) : c = d := by
  cases op <;> first
    | exact h.elim
    | exact Eq.trans (Eq.symm h) h'
    | exact Option.some.inj (Eq.trans (Eq.symm h) h')

theorem Prim.env_eq {k : Kind} (hk : k.data = false) {w w' : World} (h : Prim k w w') : w'.env = w.env := by
  cases h <;> first | rfl | (rename_i h; rw [hk] at h; cases h)

/-- Only the calls for prototype data change it. -/
theorem Op.env_eq {w : World} {op : Op} (hr : op.refsOk w) (h : ¬ ReplacesData op) : (op.run w).2.env = w.env := by
  have hk : op.kind.data = false := by
    cases op <;> first | rfl | exact absurd trivial h
  exact Steps.induct (I := fun v => v.env = w.env) (fun u v hu hp => (hp.env_eq hk).trans hu) (op.steps hr) rfl

/-! ## Export -/

/-- The two worlds agree on prototype data, on blueprint `c` and on the entities in `S`; the wires of `c` lead to
entities in `S`. -/
structure Agree (c : BpId) (S : Ref → Prop) (w v : World) : Prop where
  env : v.env = w.env
  bp : v.bp c = w.bp c
  heap : ∀ r, S r → v.heap r = w.heap r
  ends : ∀ x ∈ (w.bp c).conns, ∀ r, x.fromE = some r ∨ x.toE = some r → S r

/-- The computation gives the same result in two worlds that agree. -/
def Blind (c : BpId) (S : Ref → Prop) {α} (x : M α) : Prop :=
  ∀ w v, Agree c S w v → (x v).1 = (x w).1 ∧ Agree c S (x w).2 (x v).2

section
variable {c : BpId} {S : Ref → Prop}

theorem Blind.bind {α β} {x : M α} {f : α → M β} (hx : Blind c S x) (hf : ∀ a, Blind c S (f a)) : Blind c S (x >>= f) := by
  intro w v h
  obtain ⟨h1, h2⟩ := hx w v h
  rw [M.bind_eq, M.bind_eq]
  cases hw : x w with
  | mk r1 w1 =>
    cases hv : x v with
    | mk r2 w2 =>
      rw [hw, hv] at h1 h2
      dsimp only at h1 h2 ⊢
      subst h1
      cases r2 with
      | error e => exact ⟨rfl, h2⟩
      | ok a => exact hf a w1 w2 h2

theorem Blind.pure {α} (a : α) : Blind c S (Pure.pure a : M α) := fun _ _ h => ⟨rfl, h⟩
theorem Blind.lift {α} (x : Except Exc α) : Blind c S (M.lift x) := fun _ _ h => ⟨rfl, h⟩

theorem Blind.mapL {α β} {f : α → M β} {l : List α} (h : ∀ a ∈ l, Blind c S (f a)) : Blind c S (M.mapL f l) := by
  induction l with
  | nil => exact Blind.pure _
  | cons a l ih =>
    refine Blind.bind (h a List.mem_cons_self) (fun x => ?_)
    exact Blind.bind (ih (fun b hb => h b (List.mem_cons_of_mem _ hb))) (fun _ => Blind.pure _)

theorem mapM_same {α β : Type} {f g : α → Except Exc β} {l : List α} (h : ∀ a ∈ l, f a = g a) : l.mapM f = l.mapM g := by
  induction l with
  | nil => rfl
  | cons a l ih =>
    rw [List.mapM_cons, List.mapM_cons, h a List.mem_cons_self, ih (fun b hb => h b (List.mem_cons_of_mem _ hb))]

theorem foldlM_same {α β : Type} {f g : β → α → Except Exc β} {l : List α} (h : ∀ b, ∀ a ∈ l, f b a = g b a) (b : β) :
    l.foldlM f b = l.foldlM g b := by
  induction l generalizing b with
  | nil => rfl
  | cons a l ih =>
    rw [List.foldlM_cons, List.foldlM_cons, h b a List.mem_cons_self]
    congr 1
    funext x
    exact ih (fun b a ha => h b a (List.mem_cons_of_mem _ ha)) x

theorem Conn.orientate_ends (x : Conn) (e r : Ref) :
    ((x.orientate e).fromE = some r ∨ (x.orientate e).toE = some r) ↔ (x.fromE = some r ∨ x.toE = some r) := by
  unfold Conn.orientate
  split
  · exact or_comm
  · exact Iff.rfl

theorem Blind.getConnections {r : Ref} {w v : World} (h : Agree c S w v) (hr : S r) (hl : (w.heap r).layer = some c) :
    (getConnections r v).1 = (getConnections r w).1 ∧ Agree c S (getConnections r w).2 (getConnections r v).2 ∧
    (getConnections r w).2.heap = w.heap ∧
    ∀ l, (getConnections r w).1 = .ok l → ∀ x ∈ l, ∀ s, x.fromE = some s ∨ x.toE = some s → S s := by
  have hlv : (v.heap r).layer = some c := by rw [h.heap r hr]; exact hl
  have key : ((v.bp c).conns.filter (·.attachedTo r)).map (·.orientate r) =
      ((w.bp c).conns.filter (·.attachedTo r)).map (·.orientate r) := by rw [h.bp]
  have hS : ∀ x ∈ ((w.bp c).conns.filter (·.attachedTo r)).map (·.orientate r), ∀ s,
      x.fromE = some s ∨ x.toE = some s → S s := by
    intro x hx s hs
    obtain ⟨y, hy, rfl⟩ := List.mem_map.1 hx
    exact h.ends y (List.mem_filter.1 hy).1 s ((Conn.orientate_ends y r s).1 hs)
  have ha : Agree c S (w.setBp c { w.bp c with conns := (w.bp c).conns.map (fun x => if x.attachedTo r then x.orientate r else x) })
      (v.setBp c { v.bp c with conns := (v.bp c).conns.map (fun x => if x.attachedTo r then x.orientate r else x) }) := by
    refine ⟨h.env, ?_, h.heap, ?_⟩
    · rw [setBp_bp_self, setBp_bp_self, h.bp]
    · intro x hx s hs
      rw [setBp_bp_self] at hx
      obtain ⟨y, hy, rfl⟩ := List.mem_map.1 hx
      refine h.ends y hy s ?_
      split at hs
      · exact (Conn.orientate_ends y r s).1 hs
      · exact hs
  have hm : (((v.bp c).conns.filter (·.attachedTo r)).map (·.orientate r)).mapM
        (fun x => do return ((← otherAuto v.heap x), x)) =
      (((w.bp c).conns.filter (·.attachedTo r)).map (·.orientate r)).mapM
        (fun x => do return ((← otherAuto w.heap x), x)) := by
    rw [key]
    refine mapM_same (fun x hx => ?_)
    unfold otherAuto
    cases ht : x.toE with
    | none => rfl
    | some s => dsimp only; rw [h.heap s (hS x hx s (.inr ht))]
  unfold Verif.getConnections
  rw [hl, hlv]
  dsimp only [setBp_heap]
  rw [hm]
  cases hk : (((w.bp c).conns.filter (·.attachedTo r)).map (·.orientate r)).mapM
        (fun x => do return ((← otherAuto w.heap x), x)) with
  | error e => exact ⟨rfl, ha, rfl, fun l h => by cases h⟩
  | ok keyed =>
    dsimp only
    split
    · exact ⟨rfl, ha, rfl, fun l h => by cases h⟩
    · refine ⟨rfl, ha, rfl, fun l h => ?_⟩
      cases h
      intro x hx s hs
      obtain ⟨y, hy, rfl⟩ := List.mem_map.1 hx
      obtain ⟨z, hz, hzy⟩ := mem_of_mapM hk y ((sortBy_perm _ _).mem_iff.1 hy)
      simp only [bind_eq_ok, pure_eq_ok, Except.ok.injEq] at hzy
      obtain ⟨a, -, rfl⟩ := hzy
      exact hS z hz s hs

theorem Blind.entToJson {r : Ref} {w v : World} (h : Agree c S w v) (hr : S r) (hl : (w.heap r).layer = some c) :
    (entToJson r v).1 = (entToJson r w).1 ∧ Agree c S (entToJson r w).2 (entToJson r v).2 ∧
      (entToJson r w).2.heap = w.heap := by
  obtain ⟨h1, h2, h3, h4⟩ := Blind.getConnections h hr hl
  have hc : (connectionsToJson r v).1 = (connectionsToJson r w).1 ∧ Agree c S (connectionsToJson r w).2 (connectionsToJson r v).2 ∧
      (connectionsToJson r w).2.heap = w.heap := by
    unfold connectionsToJson
    rw [M.bind_eq, M.bind_eq]
    cases hw : Verif.getConnections r w with
    | mk r1 w1 =>
      cases hv : Verif.getConnections r v with
      | mk r2 w2 =>
        rw [hw, hv] at h1 h2
        rw [hw] at h3 h4
        dsimp only at h1 h2 h3 h4 ⊢
        subst h1
        cases r2 with
        | error e => exact ⟨rfl, h2, h3⟩
        | ok l =>
          refine ⟨?_, h2, h3⟩
          show l.foldlM (wireStep w2.heap r) [] = l.foldlM (wireStep w1.heap r) []
          refine foldlM_same (fun o x hx => ?_) _
          unfold wireStep
          cases ht : x.toE with
          | none => rfl
          | some s =>
            dsimp only
            rw [h2.heap s (h4 l rfl x hx s (.inr ht)), h2.heap r hr]
  obtain ⟨c1, c2, c3⟩ := hc
  unfold Verif.entToJson
  rw [M.bind_get, M.bind_get, M.bind_eq, M.bind_eq]
  cases hw : connectionsToJson r w with
  | mk r1 w1 =>
    cases hv : connectionsToJson r v with
    | mk r2 w2 =>
      rw [hw, hv] at c1 c2
      rw [hw] at c3
      dsimp only at c1 c2 c3 ⊢
      subst c1
      cases r2 with
      | error e => exact ⟨rfl, c2, c3⟩
      | ok o =>
        dsimp only
        rw [h.heap r hr, h.env, M.lift_bind, M.lift_bind]
        split <;> exact ⟨rfl, c2, c3⟩

theorem Blind.mapEnts {l : List Ref} {w v : World} (h : Agree c S w v)
    (hl : ∀ r ∈ l, S r ∧ (w.heap r).layer = some c) :
    (M.mapL Verif.entToJson l v).1 = (M.mapL Verif.entToJson l w).1 ∧
      Agree c S (M.mapL Verif.entToJson l w).2 (M.mapL Verif.entToJson l v).2 := by
  induction l generalizing w v with
  | nil => exact ⟨rfl, h⟩
  | cons r l ih =>
    obtain ⟨e1, e2, e3⟩ := Blind.entToJson h (hl r List.mem_cons_self).1 (hl r List.mem_cons_self).2
    show ((Verif.entToJson r >>= fun x => M.mapL Verif.entToJson l >>= fun xs => Pure.pure (x :: xs)) v).1 =
        ((Verif.entToJson r >>= fun x => M.mapL Verif.entToJson l >>= fun xs => Pure.pure (x :: xs)) w).1 ∧
      Agree c S ((Verif.entToJson r >>= fun x => M.mapL Verif.entToJson l >>= fun xs => Pure.pure (x :: xs)) w).2
        ((Verif.entToJson r >>= fun x => M.mapL Verif.entToJson l >>= fun xs => Pure.pure (x :: xs)) v).2
    rw [M.bind_eq, M.bind_eq]
    cases hw : Verif.entToJson r w with
    | mk r1 w1 =>
      cases hv : Verif.entToJson r v with
      | mk r2 w2 =>
        rw [hw, hv] at e1 e2
        rw [hw] at e3
        dsimp only at e1 e2 e3 ⊢
        subst e1
        cases r2 with
        | error e => exact ⟨rfl, e2⟩
        | ok o =>
          dsimp only
          obtain ⟨f1, f2⟩ := ih e2 (fun s hs => by rw [e3]; exact hl s (List.mem_cons_of_mem _ hs))
          rw [M.bind_eq, M.bind_eq]
          cases hw' : M.mapL Verif.entToJson l w1 with
          | mk r3 w3 =>
            cases hv' : M.mapL Verif.entToJson l w2 with
            | mk r4 w4 =>
              rw [hw', hv'] at f1 f2
              dsimp only at f1 f2 ⊢
              subst f1
              cases r4 <;> exact ⟨rfl, f2⟩

theorem Blind.toJson {w v : World} (h : Agree c S w v) (hl : ∀ r ∈ (w.bp c).objs, S r ∧ (w.heap r).layer = some c)
    (hs : ∀ s ∈ (w.bp c).schedules, ∀ r ∈ s.1, S r) : (toJson c v).1 = (toJson c w).1 := by
  obtain ⟨f1, f2⟩ := Blind.mapEnts h hl
  have hsch : (w.bp c).schedules.map (scheduleJson v.heap) = (w.bp c).schedules.map (scheduleJson w.heap) := by
    refine List.map_congr_left (fun s hss => ?_)
    unfold scheduleJson
    congr 4
    refine List.map_congr_left (fun r hr => ?_)
    rw [h.heap r (hs s hss r hr)]
  unfold Verif.toJson
  rw [M.bind_get, M.bind_get]
  dsimp only
  rw [h.bp, h.env, hsch, M.bind_eq, M.bind_eq]
  cases hw' : M.mapL Verif.entToJson (w.bp c).objs w with
  | mk r3 w3 =>
    cases hv' : M.mapL Verif.entToJson (w.bp c).objs v with
    | mk r4 w4 =>
      rw [hw', hv'] at f1 f2
      dsimp only at f1 f2 ⊢
      subst f1
      cases r4 with
      | error e => rfl
      | ok l =>
        dsimp only
        rw [M.lift_bind, M.lift_bind]
        split <;> rfl

end

/-! ## Histories -/

theorem Spec.Elsewhere.owned {c : BpId} {w w' : World} (h : Elsewhere c w w') (ho : Owned w) : Owned w' := by
  induction h with
  | refl => exact ho
  | step op _ hr _ _ ih => exact Steps.induct (fun _ _ h hp => Owned.prim _ _ h hp) (op.steps hr) ih

theorem Spec.Elsewhere.calm {c : BpId} {w w' : World} (h : Elsewhere c w w') (ho : Owned w) :
    Untouched w w' c ∧ w.next ≤ w'.next ∧ w'.env = w.env := by
  induction h with
  | refl => exact ⟨⟨rfl, fun _ _ _ => rfl⟩, Nat.le_refl _, rfl⟩
  | @step v op hv hr hc hd ih =>
    obtain ⟨i1, i2, i3⟩ := ih
    have := Op.calm (hv.owned ho) hr hc
    refine ⟨⟨this.blueprint.trans i1.blueprint, fun r hr hl => ?_⟩, Nat.le_trans i2 this.next, ?_⟩
    · have e := i1.entities r hr hl
      rw [this.entities r (Nat.lt_of_lt_of_le hr i2) (by rw [e]; exact hl), e]
    · exact (Op.env_eq hr hd).trans i3

theorem Spec.Untouched.agree {c : BpId} {w w' : World} (h : Untouched w w' c) (he : w'.env = w.env) (hs : SelfContained w c) :
    Agree c (fun r => r < w.next ∧ (w.heap r).layer = some c) w w' :=
  ⟨he, h.blueprint, fun r hr => h.entities r hr.1 hr.2, hs.wires⟩

end Verif
