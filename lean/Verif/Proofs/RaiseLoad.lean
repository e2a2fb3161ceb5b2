import Verif.Proofs.Raise
import Verif.Proofs.Load
import Verif.Proofs.Data
/-!
# Which exceptions an import raises
-/
set_option autoImplicit false

namespace Verif
open Spec

/-- The exception that `x` raises in `w`, if any, is one of these, and `Q` holds if it completes. -/
def RaisesM (t : Prop) {α : Type} (x : M α) (w : World) (Q : World → Prop) : Prop :=
  Raises t (x w).1 ∧ ∀ a v, x w = (.ok a, v) → Q v

section
variable {t : Prop} {α β : Type} {w : World} {Q R : World → Prop}

theorem RaisesM.bind {x : M α} {f : α → M β} (hx : RaisesM t x w Q)
    (hf : ∀ a v, x w = (.ok a, v) → Q v → RaisesM t (f a) v R) : RaisesM t (x >>= f) w R := by
  cases h : x w with
  | mk r v =>
    cases r with
    | error e =>
      have h' : (x >>= f) w = (.error e, v) := by rw [M.bind_eq, h]
      refine ⟨?_, ?_⟩
      · rw [h']
        have := hx.1
        rw [h] at this
        exact fun e' he => by cases he; exact this _ rfl
      · rw [h']
        intro a u hu
        cases hu
    | ok a =>
      have h' : (x >>= f) w = f a v := by rw [M.bind_eq, h]
      have := hf a v h (hx.2 a v h)
      unfold RaisesM at this ⊢
      rw [h']
      exact this

theorem RaisesM.lift {x : Except Exc α} {f : α → M β} (hx : Raises t x) (hf : ∀ a, x = .ok a → RaisesM t (f a) w R) :
    RaisesM t (M.lift x >>= f) w R :=
  .bind (Q := fun v => v = w) ⟨hx, fun _ _ h => (congrArg Prod.snd h).symm⟩ fun a v h hv => by
    subst hv
    exact hf a (congrArg Prod.fst h)

theorem RaisesM.done {x : M α} {a : α} {v : World} (h : x w = (.ok a, v)) (hq : Q v) : RaisesM t x w Q := by
  unfold RaisesM
  rw [h]
  exact ⟨.ok _, fun _ _ h => by cases h; exact hq⟩

theorem RaisesM.mono {x : M α} (h : RaisesM t x w Q) (hq : ∀ v, Q v → R v) : RaisesM t x w R :=
  ⟨h.1, fun a v hv => hq v (h.2 a v hv)⟩

theorem RaisesM.forEach {f : α → M Unit} : ∀ {l : List α} {w : World}, (∀ a ∈ l, ∀ v, Q v → RaisesM t (f a) v Q) → Q w →
    RaisesM t (M.forEach f l) w Q
  | [], _, _, hw => .done rfl hw
  | a :: l, w, h, hw => by
    show RaisesM t (f a >>= fun _ => M.forEach f l) w Q
    exact .bind (h a (List.mem_cons_self ..) w hw) fun _ v _ hv =>
      RaisesM.forEach (fun x hx => h x (List.mem_cons_of_mem _ hx)) hv

end

/-! ## The parts of an import -/

section
variable {t : Prop} {b : BpId}

/-- Connection data with ordinary values. -/
def GoodRaw (e : Entity) : Prop := OrdinaryAt "connections" e.raw ∧ Ordinary e.raw

/-- No custom behaviours, and ordinary connection data. -/
def OrdinaryBp (b : BpId) (w : World) : Prop :=
  (w.bp b).custom = [] ∧ ∀ r ∈ (w.bp b).objs, r < w.next ∧ GoodRaw (w.heap r)

theorem OrdinaryBp.setBp {w : World} {p : Bp} (h : OrdinaryBp b w) (hc : p.custom = (w.bp b).custom) (ho : p.objs = (w.bp b).objs) :
    OrdinaryBp b (w.setBp b p) := by
  unfold OrdinaryBp
  rw [setBp_bp_self, hc, ho]
  exact h

theorem ordinaryAt_none {k : String} (h : k ≠ "position") (h2 : k ≠ "strict") (hx : k ≠ "x") (hy : k ≠ "y") : OrdinaryAt k .none where
  coord h := by rcases h with h | h <;> contradiction
  number _ := .inl rfl
  place h' := absurd h' h
  strict h' := absurd h' h2
  turn _ _ h := by cases h
  count _ _ h := by cases h
  volume _ _ h := by cases h
  sides _ _ h := by cases h

theorem goodRaw_new {env : Env} {c : Option Custom} {l : Option BpId} {kw : Dict} {e : Entity} (h : OrdinaryDict kw)
    (he : Entity.new env c l kw = .ok e) : GoodRaw e := by
  unfold GoodRaw
  rw [Entity.new_raw he]
  unfold Dict.getD
  cases hg : Dict.get? kw "connections" with
  | none => exact ⟨ordinaryAt_none (by decide) (by decide) (by decide) (by decide), ordinary_none⟩
  | some v => exact ordinaryDict_kw h _ _ hg

theorem raises_layerLoad {v : Val} {w : World} (hv : t → Ordinary v) (hw : t → OrdinaryBp b w) :
    RaisesM t (layerLoad b v) w (fun u => t → OrdinaryBp b u) := by
  unfold layerLoad
  refine .lift (raises_kwargs v) fun kw hkw => ?_
  have hn := raises_entity (t := t) w.env (c := w.customOf (some b)) (some b) (kw := kw)
    (fun ht => ordinary_kwargs (hv ht) hkw) (fun ht => (hw ht).1)
  cases h : Entity.new w.env (w.customOf (some b)) (some b) kw with
  | error x =>
    have hr : newEntity (some b) kw w = (.error x, w) := by unfold newEntity; rw [h]
    refine .bind (Q := fun _ => True) ⟨?_, fun _ _ _ => trivial⟩ (fun a u hu => by rw [hr] at hu; cases hu)
    rw [hr]
    exact fun e he => by cases he; exact hn _ h
  | ok e =>
    have hr : (newEntity (some b) kw >>= fun r => M.modify (fun w => w.setBp b { w.bp b with objs := (w.bp b).objs ++ [r] })) w
        = (.ok (), w.push b e) := by
      rw [M.bind_eq]
      unfold newEntity
      rw [h]
      rfl
    refine .done hr fun ht => ?_
    refine ⟨?_, fun r hr => ?_⟩
    · rw [push_bp_self]; exact (hw ht).1
    · rw [push_bp_self] at hr
      rw [push_next, push_heap]
      rcases List.mem_append.1 hr with hr | hr
      · have := (hw ht).2 r hr
        rw [if_neg (Nat.ne_of_lt this.1)]
        exact ⟨Nat.lt_succ_of_lt this.1, this.2⟩
      · rw [List.mem_singleton.1 hr, if_pos rfl]
        exact ⟨Nat.lt_succ_self _, goodRaw_new (ordinary_kwargs (hv ht) hkw) h⟩

theorem raises_icon (v : Val) (w : World) (hw : t → OrdinaryBp b w) : RaisesM t (loadIcon b v) w (fun u => t → OrdinaryBp b u) := by
  unfold loadIcon
  rw [show ∀ f : World → M Unit, (M.get >>= f) = fun w => f w w from fun _ => rfl]
  show RaisesM t (M.lift _ >>= _) w _
  refine .lift (raises_subscript _ _) fun _ _ => .lift (raises_signalSet _ _) fun _ _ => .lift (raises_subscript _ _) fun _ _ =>
    .lift (raises_iconIndex _) fun _ _ => .lift (raises_setPy _ _ _) fun _ _ => .done rfl fun ht => (hw ht).setBp rfl rfl

theorem raises_loadColor (v : Val) (w : World) (hw : t → OrdinaryBp b w) : RaisesM t (loadColor b v) w (fun u => t → OrdinaryBp b u) := by
  unfold loadColor
  split
  · exact .done rfl hw
  · exact .lift (raises_color _) fun _ _ => .done rfl fun ht => (hw ht).setBp rfl rfl

theorem raises_loadRef {r : Ref} {side color : String} {c : Val} {w : World} {P : (Ref → Entity) → Prop}
    (hs : t → ∀ x ∈ side.toList, x.toNat < 128) (hc : t → Ordinary c) (hw : P w.heap) :
    RaisesM t (loadRef b r side color c) w (fun u => P u.heap) := by
  unfold loadRef
  show RaisesM t (M.lift _ >>= _) w _
  refine .lift (raises_subscript _ _) fun _ _ => .lift (raises_asDict _) fun d hd => .lift (raises_conn _ _ _ ?_ ?_) fun _ _ =>
    .done rfl hw
  · intro ht s h
    cases h
    exact hs ht
  · intro ht
    unfold Dict.getD
    cases hg : Dict.get? d "circuit_id" with
    | none => intro s h; cases h; decide
    | some v => exact (ordinaryDict_kw (ordinary_asDict (hc ht) hd) _ _ hg).1.count (by decide)

theorem raises_loadWires {r : Ref} {w : World} {P : (Ref → Entity) → Prop} (hr : t → GoodRaw (w.heap r)) (hw : P w.heap) :
    RaisesM t (loadWires b r) w (fun u => P u.heap) := by
  unfold loadWires
  show RaisesM t (fun w => _) w _
  show RaisesM t (match (w.heap r).raw with
    | .none => _
    | raw => _) w _
  split
  · exact .done rfl hw
  · refine .lift (raises_asDict _) fun sides hsides => .forEach (fun p hp v hv => ?_) hw
    obtain ⟨side, cp⟩ := p
    refine .lift (raises_asDict _) fun colors hcolors => .forEach (fun p' hp' v hv => ?_) hv
    obtain ⟨color, cs⟩ := p'
    refine .lift (raises_iter _) fun cs' hcs' => .forEach (fun c hc v hv => raises_loadRef (fun ht => ?_) (fun ht => ?_) hv) hv
    · generalize hraw : (w.heap r).raw = raw at *
      cases raw with
      | dict d => cases hsides; exact (hr ht).1.sides rfl _ hraw _ hp
      | _ => cases hsides
    · have h1 := ordinary_asDict (hr ht).2 hsides
      have h2 := ordinary_asDict (ordinaryDict_mem h1 hp).2 hcolors
      exact ordinary_iter (ordinaryDict_mem h2 hp').2 hcs' hc

theorem raises_getConnections (r : Ref) (w : World) : RaisesM t (getConnections r) w (fun _ => True) := by
  refine ⟨?_, fun _ _ _ => trivial⟩
  unfold getConnections
  split
  · exact .error (by decide)
  · dsimp only
    split
    · rename_i hx
      refine fun e he => ?_
      cases he
      refine Raises.mapM (t := t) (fun c _ => ?_) _ hx
      refine .bind ?_ fun _ _ => .ok _
      unfold otherAuto
      split
      · exact .error (by decide)
      · exact .ok _
    · split
      · exact .error (by decide)
      · exact .ok _

theorem raises_parse {w : World} (hw : t → ∀ r ∈ (w.bp b).objs, GoodRaw (w.heap r)) :
    RaisesM t (parseConnections b) w (fun _ => True) := by
  unfold parseConnections
  show RaisesM t (M.forEach (loadWires b) _ >>= _) (w.setBp b { w.bp b with conns := [] }) _
  refine .bind (Q := fun u => u.heap = w.heap) (.forEach (fun r hr v hv => ?_) rfl) fun _ v _ _ =>
    .forEach (fun r _ v _ => .bind (raises_getConnections r v) fun _ _ _ _ => .done rfl trivial) trivial
  rw [setBp_bp_self] at hr
  refine raises_loadWires (P := fun h => h = w.heap) (fun ht => ?_) hv
  rw [hv]
  exact hw ht r hr

theorem raises_tile {v : Val} {w : World} (hv : t → Ordinary v) : RaisesM t (tileLoad b v) w (fun _ => True) := by
  unfold tileLoad
  refine .lift (raises_kwargs _) fun kw hkw => ?_
  split
  · exact ⟨.error (by decide), fun _ _ _ => trivial⟩
  · show RaisesM t (M.lift _ >>= _) w _
    refine .lift ?_ fun _ _ => .done rfl trivial
    have ho : t → OrdinaryDict (kw ++ [("blueprint_layer", Val.none)]) := fun ht => ordinaryDict_of fun p hp => by
      rcases List.mem_append.1 hp with hp | hp
      · exact ordinaryDict_mem (ordinary_kwargs (hv ht) hkw) hp
      · rw [List.mem_singleton.1 hp]
        exact ⟨ordinaryAt_none (by decide) (by decide) (by decide) (by decide), ordinary_none⟩
    unfold Tile.new
    refine .bind (raises_getItem _ _) fun _ _ => .bind (raises_tileName _ _) fun _ _ => .bind (raises_getItem _ _) fun p hp => ?_
    have hop : t → OrdinaryAt "position" p ∧ Ordinary p := fun ht => by
      refine ordinary_subscript (v := .dict (Dict.erase (kw ++ [("blueprint_layer", Val.none)]) "name")) ?_ hp
      unfold Ordinary
      exact ordinaryDict_of fun q hq => ordinaryDict_mem (ho ht) (List.mem_filter.1 hq).1
    refine .bind (raises_vec fun ht => (hop ht).2) fun q hq => ?_
    split
    · exact .error (by decide)
    · split
      · exact .ok _
      · exact .outside fun ht => by
          have := raises_pos (v := p) (t := True) (fun _ => ⟨(hop ht).2, (hop ht).1.place rfl⟩) .unmodelled (by
            unfold Entity.posOf
            rw [hq]
            rfl)
          rcases this with h | h
          · exact absurd h (by decide)
          · exact h.2 trivial

theorem raises_load {data : Val} {w : World} (hd : t → Ordinary data) (hw : t → OrdinaryBp b w) :
    RaisesM t (load b data) w (fun _ => True) := by
  unfold load
  refine .lift (raises_unwrap _) fun d hdd => ?_
  have ho : t → OrdinaryDict d := fun ht => ordinary_unwrap (hd ht) hdd
  refine .bind (Q := fun u => t → OrdinaryBp b u) (.done rfl fun ht => (hw ht).setBp rfl rfl) fun _ v _ hv =>
    .bind (raises_loadColor _ _ hv) fun _ v _ hv =>
    .bind (Q := fun u => t → OrdinaryBp b u) (.done rfl fun ht => (hv ht).setBp rfl rfl) fun _ v _ hv =>
    .lift (raises_iter _) fun icons _ => .bind (.forEach (fun i _ u hu => raises_icon i u hu) hv) fun _ v _ hv =>
    .lift (raises_iter _) fun ents hents => .bind (.forEach (fun i hi u hu => raises_layerLoad (fun ht => ?_) hu) hv) fun _ v _ hv => ?_
  · exact ordinary_iter (ordinaryAt_getD (ho ht) _ ordinary_nil) hents hi
  · refine .bind (Q := fun u => t → ∀ r ∈ (u.bp b).objs, GoodRaw (u.heap r)) (.done rfl fun ht r hr => ?_) fun _ v _ hv =>
      .bind (raises_parse hv) fun _ v _ _ => .lift (raises_iter _) fun tiles htiles =>
      .bind (.forEach (fun i hi u _ => raises_tile (fun ht => ?_)) trivial) fun _ v _ _ =>
      .bind (Q := fun _ => True) (.done rfl trivial) fun _ v _ _ => .lift (raises_iter _) fun sch _ => ?_
    · have h1 : r ∈ (v.bp b).objs := by
        rw [sort_bp_self] at hr
        simpa using hr
      obtain ⟨n, hn⟩ := sort_heap v b r
      unfold GoodRaw
      rw [hn]
      exact ((hv ht).2 r h1).2
    · exact ordinary_iter (ordinaryAt_getD (ho ht) _ ordinary_nil) htiles hi
    · show RaisesM t (M.lift _ >>= _) v _
      exact .lift (.mapM fun _ _ => raises_schedule _ _ _) fun _ _ => .done rfl trivial

end

end Verif
