import Verif.Proofs.C3
import Verif.Proofs.Wires
import Mathlib.Data.List.Nodup
/-!
# Helper lemmas: the classes that entities get
-/
set_option autoImplicit false

namespace Verif
namespace Klass

/-- A mixin comes before the mixin it derives from. -/
def Closed (k : Klass) : Prop :=
  ∀ a p, Cls.mx a ∈ k.mro → a.parent = some p → [Cls.mx a, Cls.mx p].Sublist k.mro

theorem make_ok {c : Cls} {inner : Bool} {bases : List Klass} {k : Klass} (h : make c inner bases = .ok k) :
    C3.linearize c (bases.filterMap (fun k => k.mro.head?)) (bases.map (·.mro)) = .ok k.mro ∧
    C3.linearize (CbCls.made c)
      ((if inner then [CbCls.inner c] else []) ++ bases.filterMap (fun k => k.cb.head?))
      ((if inner then [[CbCls.inner c, .object]] else []) ++ bases.map (·.cb)) = .ok k.cb := by
  unfold make at h
  simp only [bind_eq_ok, pure_eq_ok, Except.ok.injEq] at h
  obtain ⟨mro, h1, cb, h2, rfl⟩ := h
  exact ⟨h1, h2⟩

/-- The resolution order of a new class: the class, then the orders of its bases. -/
theorem make_mro {c : Cls} {inner : Bool} {bases : List Klass} {k : Klass} (h : make c inner bases = .ok k) :
    ∃ t, k.mro = c :: t ∧ t.Nodup ∧ (∀ b ∈ bases, b.mro.Sublist t) ∧ ∀ x ∈ t, ∃ b ∈ bases, x ∈ b.mro := by
  obtain ⟨t, h1, h2, -, h3, -, h4⟩ := C3.linearize_ok (make_ok h).1
  refine ⟨t, h1, h2, fun b hb => h3 _ (List.mem_map_of_mem hb), fun x hx => ?_⟩
  rcases h4 x hx with h | ⟨s, hs, hx⟩
  · obtain ⟨b, hb, hh⟩ := List.mem_filterMap.1 h
    exact ⟨b, hb, List.mem_of_mem_head? hh⟩
  · obtain ⟨b, hb, rfl⟩ := List.mem_map.1 hs
    exact ⟨b, hb, hx⟩

theorem make_closed {c : Cls} {inner : Bool} {bases : List Klass} {k : Klass}
    (h : make c inner bases = .ok k) (hb : ∀ b ∈ bases, b.Closed)
    (hc : ∀ a p, c = .mx a → a.parent = some p → ∃ b ∈ bases, Cls.mx p ∈ b.mro) : k.Closed := by
  obtain ⟨t, h1, -, h3, h4⟩ := make_mro h
  intro a p ha hp
  rw [h1] at ha ⊢
  rcases List.mem_cons.1 ha with e | ha
  · obtain ⟨b, hbb, hpb⟩ := hc a p e.symm hp
    rw [e]
    exact (List.singleton_sublist.2 ((h3 b hbb).subset hpb)).cons_cons c
  · obtain ⟨b, hbb, hab⟩ := h4 _ ha
    exact ((hb b hbb a p hab hp).trans (h3 b hbb)).cons c

theorem baseMixin_closed : baseMixin.Closed := by
  intro a p ha
  simp [baseMixin] at ha

theorem entity_closed : entity.Closed := by
  intro a p ha
  simp [entity] at ha

theorem ofMxAux_ok {d : Nat} {m : Mx} {k : Klass} (h : ofMxAux d m = .ok k) :
    k.mro.head? = some (.mx m) ∧ k.Closed := by
  induction d generalizing m k with
  | zero => cases h
  | succ d ih =>
    have hx : ∃ b, (match m.parent with | none => Except.ok baseMixin | some p => ofMxAux d p) = .ok b ∧
        make (.mx m) m.hasInner [b] = .ok k := by
      unfold ofMxAux at h
      cases hp : m.parent with
      | none => rw [hp] at h; exact ⟨_, rfl, h⟩
      | some p =>
        rw [hp] at h
        simpa only [bind_eq_ok] using h
    obtain ⟨b, hb, hm⟩ := hx
    obtain ⟨t, h1, -⟩ := make_mro hm
    refine ⟨by rw [h1]; rfl, ?_⟩
    cases hp : m.parent with
    | none =>
      rw [hp] at hb
      cases hb
      refine make_closed hm (by simpa using baseMixin_closed) ?_
      rintro a p e hp'
      cases e
      rw [hp] at hp'
      cases hp'
    | some p =>
      rw [hp] at hb
      obtain ⟨hh, hcl⟩ := ih hb
      refine make_closed hm (by simpa using hcl) ?_
      rintro a q e hp'
      cases e
      rw [hp] at hp'
      cases hp'
      exact ⟨b, by simp, List.mem_of_mem_head? hh⟩

theorem extend_closed {n : Nat} {c k : Klass} {ms : List Mx} (h : extend n c ms = .ok k) (hc : c.Closed) :
    k.Closed := by
  unfold extend at h
  simp only [bind_eq_ok] at h
  obtain ⟨ks, hks, hm⟩ := h
  refine make_closed hm ?_ (by intro a p e; cases e)
  intro b hb
  rcases List.mem_cons.1 hb with rfl | hb
  · exact hc
  · obtain ⟨m, -, hm⟩ := (mem_mapM_except hks b).1 hb
    exact (ofMxAux_ok hm).2

/-- The class after `extend` has the mixins of the old class and the new ones. -/
theorem extend_chain {n : Nat} {c k : Klass} {ms : List Mx} (h : extend n c ms = .ok k) :
    k.chain.Nodup ∧ c.chain.Sublist k.chain ∧ ∀ m ∈ ms, m ∈ k.chain := by
  unfold extend at h
  simp only [bind_eq_ok] at h
  obtain ⟨ks, hks, hm⟩ := h
  obtain ⟨t, h1, h2, h3, -⟩ := make_mro hm
  have hch : k.chain = t.filterMap (fun c => match c with | .mx m => some m | _ => none) := by
    unfold chain
    rw [h1]
    rfl
  rw [hch]
  refine ⟨?_, (h3 c (by simp)).filterMap _, ?_⟩
  · refine h2.filterMap ?_
    intro a a' b hb hb'
    cases a <;> cases a' <;> simp_all
  · intro m hmm
    obtain ⟨b, hmb⟩ := mapM_total hks m hmm
    have hb := (mem_mapM_except hks b).2 ⟨m, hmm, hmb⟩
    have hh := (ofMxAux_ok hmb).1
    rw [List.mem_filterMap]
    exact ⟨.mx m, (h3 b (List.mem_cons_of_mem _ hb)).subset (List.mem_of_mem_head? hh), rfl⟩

theorem mem_chain {k : Klass} {m : Mx} : m ∈ k.chain ↔ Cls.mx m ∈ k.mro := by
  unfold chain
  rw [List.mem_filterMap]
  constructor
  · rintro ⟨c, hc, h⟩
    cases c <;> simp_all
  · intro h
    exact ⟨_, h, rfl⟩

/-- What holds of the class of every entity. -/
def Ok (k : Klass) : Prop := k.chain.Nodup ∧ k.Closed

theorem entity_ok : entity.Ok := ⟨by decide, entity_closed⟩

theorem extend_ok {n : Nat} {c k : Klass} {ms : List Mx} (h : extend n c ms = .ok k) (hc : c.Ok) : k.Ok :=
  ⟨(extend_chain h).1, extend_closed h hc.2⟩

theorem Ok.parent {k : Klass} (h : k.Ok) {m p : Mx} (hm : m ∈ k.chain) (hp : m.parent = some p) :
    [m, p].Sublist k.chain := by
  have := (h.2 m p (mem_chain.1 hm) hp).filterMap
    (fun c : Cls => match c with | .mx m => some m | _ => none)
  exact this

end Klass

theorem Entity.setName_klass {env : Env} {custom : Option Custom} {e : Entity} {v : Val}
    (h : e.klass.Ok) : (e.setName env custom v).2.klass.Ok := by
  unfold setName
  split
  · split <;> exact h
  · split
    · split
      · exact h
      · split
        · exact h
        · split
          · exact h
          · dsimp only
            split
            · exact h
            · rename_i k hk
              exact Klass.extend_ok hk h
    · exact h

theorem Reachable.klass {env : Env} {w : World} (h : Reachable env w) (r : Ref) : (w.heap r).klass.Ok := by
  refine h.entity (P := fun e => e.klass.Ok) Klass.entity_ok ?_ ?_ (fun _ _ h => h) (fun _ _ h => h) r
  · rintro env l e ⟨custom, kw, he⟩
    obtain ⟨-, -, name, position, number, e', -, -, -, hs, hf⟩ := Entity.new_ok.1 he
    obtain ⟨pos, dir, cb, a, -, -, -, -, rfl⟩ := Entity.finish_ok.1 hf
    have := Entity.setName_klass (env := env) (custom := custom) (v := name)
      (e := Entity.raw0 l kw number) Klass.entity_ok
    rw [hs] at this
    exact this
  · intro env e e' he heff
    cases heff with
    | rotate n a d =>
      obtain ⟨_, _, _, hf⟩ := Entity.rotate_frame e n a d
      rw [hf]
      exact he
    | setName c v => exact Entity.setName_klass he
    | setPos p => exact he
    | setDir v d hd => exact he
    | setClass base ms k hb hk =>
      refine Klass.extend_ok hk ?_
      rcases hb with rfl | rfl
      · exact he
      · exact Klass.entity_ok
    | setNumber n => exact he
    | setOri v o h ht => exact he
    | setAttr k v => obtain ⟨_, hf⟩ := Entity.setAttr_frame env e k v; rw [hf]; exact he
    | setControl k v => obtain ⟨_, hf⟩ := Entity.setControl_frame env e k v; rw [hf]; exact he
    | newControl v => obtain ⟨_, hf⟩ := Entity.newControl_frame env e v; rw [hf]; exact he

end Verif
