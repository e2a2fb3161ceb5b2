import Verif.Proofs.Classes
import Verif.Proofs.Entity
import Verif.Proofs.World
import Verif.Proofs.Dict
import Verif.Proofs.WireExport
import Verif.Spec.Prototypes
import Verif.Spec.Names
/-!
# Helper lemmas: building classes and renaming entities
-/
set_option autoImplicit false

namespace Verif
namespace Klass

def isDyn : Cls → Bool
  | .dyn _ => true
  | _ => false

def isDynCb : CbCls → Bool
  | .made c => isDyn c
  | .inner c => isDyn c
  | .object => false

/-- Every mixin is a class with itself first, and knows no class made at run time. -/
theorem ofMx_ok (m : Mx) : ∃ k, ofMx m = .ok k ∧ k.mro.head? = some (.mx m) ∧
    k.cb.head? = some (.made (.mx m)) ∧ (∀ c ∈ k.mro, isDyn c = false) ∧ ∀ c ∈ k.cb, isDynCb c = false := by
  have key : ((ofMx m).toOption.any fun k => decide (k.mro.head? = some (.mx m)) &&
      decide (k.cb.head? = some (.made (.mx m))) && k.mro.all (fun c => !isDyn c) &&
      k.cb.all (fun c => !isDynCb c)) = true := by
    cases m <;> decide +kernel
  cases h : ofMx m with
  | error e => rw [h] at key; cases key
  | ok k =>
    rw [h] at key
    simpa [Except.toOption, and_assoc] using key

/-- The mixin classes as class objects. -/
theorem mapM_ofMx (ms : List Mx) : ∃ ks, ms.mapM ofMx = .ok ks ∧
    ks.filterMap (fun k => k.mro.head?) = ms.map Cls.mx ∧
    ks.filterMap (fun k => k.cb.head?) = ms.map (fun m => CbCls.made (.mx m)) ∧
    ∀ k ∈ ks, ∃ m ∈ ms, ofMx m = .ok k := by
  induction ms with
  | nil => exact ⟨[], rfl, rfl, rfl, fun _ h => by cases h⟩
  | cons m ms ih =>
    obtain ⟨k, h1, h2, h3, -⟩ := ofMx_ok m
    obtain ⟨ks, h4, h5, h6, h7⟩ := ih
    refine ⟨k :: ks, ?_, ?_, ?_, ?_⟩
    · rw [List.mapM_cons, h1, h4]
      rfl
    · rw [List.filterMap_cons, h2, h5]
      rfl
    · rw [List.filterMap_cons, h3, h6]
      rfl
    · intro k' hk
      rcases List.mem_cons.1 hk with rfl | hk
      · exact ⟨m, List.mem_cons_self .., h1⟩
      · obtain ⟨m', hm, h⟩ := h7 k' hk
        exact ⟨m', List.mem_cons_of_mem _ hm, h⟩

/-- No class numbered `n` or later, and nothing twice. -/
structure Fresh (k : Klass) (n : Nat) : Prop where
  mro : k.mro.Nodup
  dyn : ∀ i, n ≤ i → Cls.dyn i ∉ k.mro
  cb : k.cb.Nodup
  cbDyn : ∀ i, n ≤ i → CbCls.made (.dyn i) ∉ k.cb

/-- The class has been extended with the mixins. -/
structure Fits (k : Klass) (n : Nat) (ms : List Mx) : Prop extends Fresh k n where
  heads : ∃ h t, k.mro = h :: t ∧ (ms.map Cls.mx).Sublist t
  cbHeads : ∃ h t, k.cb = h :: t ∧ (ms.map (fun m => CbCls.made (.mx m))).Sublist t
  sub : ∀ m ∈ ms, ∀ c, ofMx m = .ok c → c.mro.Sublist k.mro ∧ c.cb.Sublist k.cb

theorem entity_fresh (n : Nat) : entity.Fresh n := by
  refine ⟨by decide, ?_, by decide, ?_⟩ <;> intro i _ h <;> simp [entity] at h

theorem extend_ok' {n : Nat} {c k : Klass} {ms : List Mx} (h : extend n c ms = .ok k) :
    ∃ ks, ms.mapM ofMx = .ok ks ∧ make (.dyn n) false (c :: ks) = .ok k := by
  unfold extend at h
  simpa only [bind_eq_ok] using h

/-- Extending a class. -/
theorem extend_fits {n : Nat} {c k : Klass} {ms : List Mx} (h : extend n c ms = .ok k) (hc : c.Fresh n) :
    k.Fits (n + 1) ms := by
  obtain ⟨ks, hks, hm⟩ := extend_ok' h
  obtain ⟨ks', h1, h2, h3, h4⟩ := mapM_ofMx ms
  rw [hks] at h1
  cases h1
  obtain ⟨hl, hcb⟩ := make_ok hm
  obtain ⟨t, e1, n1, -, s1, b1, m1⟩ := C3.linearize_ok hl
  obtain ⟨t', e2, n2, -, s2, b2, m2⟩ := C3.linearize_ok hcb
  have hdyn : ∀ i, n ≤ i → Cls.dyn i ∉ t := by
    intro i hi hx
    rcases m1 _ hx with hx | ⟨s, hs, hx⟩
    · obtain ⟨b, hb, hh⟩ := List.mem_filterMap.1 hx
      have hy := List.mem_of_mem_head? hh
      rcases List.mem_cons.1 hb with rfl | hb
      · exact hc.dyn i hi hy
      · obtain ⟨m, -, ho⟩ := h4 b hb
        obtain ⟨k', ho', -, -, hd, -⟩ := ofMx_ok m
        rw [ho] at ho'
        cases ho'
        cases hd _ hy
    · obtain ⟨b, hb, rfl⟩ := List.mem_map.1 hs
      rcases List.mem_cons.1 hb with rfl | hb
      · exact hc.dyn i hi hx
      · obtain ⟨m, -, ho⟩ := h4 b hb
        obtain ⟨k', ho', -, -, hd, -⟩ := ofMx_ok m
        rw [ho] at ho'
        cases ho'
        cases hd _ hx
  have hdyn' : ∀ i, n ≤ i → CbCls.made (.dyn i) ∉ t' := by
    intro i hi hx
    simp only [Bool.false_eq_true, if_false, List.nil_append] at m2
    rcases m2 _ hx with hx | ⟨s, hs, hx⟩
    · obtain ⟨b, hb, hh⟩ := List.mem_filterMap.1 hx
      have hy := List.mem_of_mem_head? hh
      rcases List.mem_cons.1 hb with rfl | hb
      · exact hc.cbDyn i hi hy
      · obtain ⟨m, -, ho⟩ := h4 b hb
        obtain ⟨k', ho', -, -, -, hd⟩ := ofMx_ok m
        rw [ho] at ho'
        cases ho'
        cases hd _ hy
    · obtain ⟨b, hb, rfl⟩ := List.mem_map.1 hs
      rcases List.mem_cons.1 hb with rfl | hb
      · exact hc.cbDyn i hi hx
      · obtain ⟨m, -, ho⟩ := h4 b hb
        obtain ⟨k', ho', -, -, -, hd⟩ := ofMx_ok m
        rw [ho] at ho'
        cases ho'
        cases hd _ hx
  simp only [Bool.false_eq_true, if_false, List.nil_append] at s2 b2
  refine ⟨⟨?_, ?_, ?_, ?_⟩, ⟨_, t, e1, ?_⟩, ⟨_, t', e2, ?_⟩, ?_⟩
  · rw [e1]
    exact List.nodup_cons.2 ⟨hdyn n (Nat.le_refl n), n1⟩
  · intro i hi hx
    rw [e1] at hx
    rcases List.mem_cons.1 hx with hx | hx
    · cases hx; omega
    · exact hdyn i (by omega) hx
  · rw [e2]
    exact List.nodup_cons.2 ⟨hdyn' n (Nat.le_refl n), n2⟩
  · intro i hi hx
    rw [e2] at hx
    rcases List.mem_cons.1 hx with hx | hx
    · cases hx; omega
    · exact hdyn' i (by omega) hx
  · rw [← h2]
    refine List.Sublist.trans ?_ b1
    rw [List.filterMap_cons]
    split
    · exact List.Sublist.refl _
    · exact List.sublist_cons_self ..
  · rw [← h3]
    refine List.Sublist.trans ?_ b2
    rw [List.filterMap_cons]
    split
    · exact List.Sublist.refl _
    · exact List.sublist_cons_self ..
  · intro m hm' c' ho
    have hmem : c' ∈ ks := by
      clear hl hcb m1 m2 s1 s2 b1 b2 hm h2 h3 h4 h
      induction ms generalizing ks with
      | nil => cases hm'
      | cons a ms ih =>
        rw [List.mapM_cons] at hks
        simp only [bind_eq_ok, pure_eq_ok, Except.ok.injEq] at hks
        obtain ⟨ka, ha, ks', hks', rfl⟩ := hks
        rcases List.mem_cons.1 hm' with rfl | hm'
        · rw [ho] at ha
          cases ha
          exact List.mem_cons_self ..
        · exact List.mem_cons_of_mem _ (ih ks' hks' hm')
    rw [e1, e2]
    exact ⟨(s1 _ (List.mem_map_of_mem (List.mem_cons_of_mem _ hmem))).cons _,
      (s2 _ (List.mem_map_of_mem (List.mem_cons_of_mem _ hmem))).cons _⟩

/-- Extending again with the same mixins puts a new class in front and changes nothing else. -/
theorem Fits.extend {k : Klass} {n : Nat} {ms : List Mx} (h : k.Fits n ms) :
    Klass.extend n k ms = .ok ⟨.dyn n :: k.mro, .made (.dyn n) :: k.cb⟩ := by
  obtain ⟨ks, h1, h2, h3, h4⟩ := mapM_ofMx ms
  unfold Klass.extend
  rw [h1]
  show make (.dyn n) false (k :: ks) = _
  obtain ⟨a, t, e1, b1⟩ := h.heads
  obtain ⟨a', t', e2, b2⟩ := h.cbHeads
  have m1 : C3.linearize (Cls.dyn n) ((k :: ks).filterMap (fun k => k.mro.head?)) ((k :: ks).map (·.mro)) =
      .ok (.dyn n :: k.mro) := by
    have hh : (k :: ks).filterMap (fun k => k.mro.head?) = a :: ms.map Cls.mx := by
      rw [List.filterMap_cons, e1, h2]
      rfl
    have hs : (a :: ms.map Cls.mx).Sublist k.mro := by
      rw [e1]
      exact b1.cons_cons a
    unfold C3.linearize
    rw [hh, if_pos (hs.nodup h.mro), List.map_cons, List.cons_append, C3.merge_sub h.mro]
    intro s hs'
    rcases List.mem_append.1 hs' with hs' | hs'
    · obtain ⟨b, hb, rfl⟩ := List.mem_map.1 hs'
      obtain ⟨m, hm, ho⟩ := h4 b hb
      exact (h.sub m hm b ho).1
    · rw [List.mem_singleton.1 hs']
      exact hs
  have m2 : C3.linearize (CbCls.made (.dyn n)) ((k :: ks).filterMap (fun k => k.cb.head?)) ((k :: ks).map (·.cb)) =
      .ok (.made (.dyn n) :: k.cb) := by
    have hh : (k :: ks).filterMap (fun k => k.cb.head?) = a' :: ms.map (fun m => CbCls.made (.mx m)) := by
      rw [List.filterMap_cons, e2, h3]
      rfl
    have hs : (a' :: ms.map (fun m => CbCls.made (.mx m))).Sublist k.cb := by
      rw [e2]
      exact b2.cons_cons a'
    unfold C3.linearize
    rw [hh, if_pos (hs.nodup h.cb), List.map_cons, List.cons_append, C3.merge_sub h.cb]
    intro s hs'
    rcases List.mem_append.1 hs' with hs' | hs'
    · obtain ⟨b, hb, rfl⟩ := List.mem_map.1 hs'
      obtain ⟨m, hm, ho⟩ := h4 b hb
      exact (h.sub m hm b ho).2
    · rw [List.mem_singleton.1 hs']
      exact hs
  unfold make
  dsimp only
  rw [m1]
  show (do
    let cb ← C3.linearize (CbCls.made (.dyn n)) ([] ++ _) ([] ++ _)
    return (⟨_, cb⟩ : Klass)) = _
  rw [List.nil_append, List.nil_append, m2]
  rfl

theorem Fits.next {k : Klass} {n : Nat} {ms : List Mx} (h : k.Fits n ms) :
    (⟨.dyn n :: k.mro, .made (.dyn n) :: k.cb⟩ : Klass).Fits (n + 1) ms :=
  extend_fits h.extend h.toFresh

/-- The same behaviours in the same order. -/
def Alike (k k' : Klass) : Prop :=
  k'.chain = k.chain ∧ k'.cbChain = k.cbChain ∧ k'.insFiltersShadowed = k.insFiltersShadowed

theorem Alike.refl (k : Klass) : k.Alike k := ⟨rfl, rfl, rfl⟩

theorem Alike.trans {k l m : Klass} (h : k.Alike l) (h' : l.Alike m) : k.Alike m :=
  ⟨h'.1.trans h.1, h'.2.1.trans h.2.1, h'.2.2.trans h.2.2⟩

theorem alike_cons (k : Klass) (n : Nat) : k.Alike ⟨.dyn n :: k.mro, .made (.dyn n) :: k.cb⟩ := ⟨rfl, rfl, rfl⟩

theorem Alike.ctx {k k' : Klass} (h : k.Alike k') : k'.ctx = k.ctx := by
  unfold Klass.ctx Klass.first
  rw [h.1, h.2.1]

theorem Alike.seenBy {k k' : Klass} (h : k.Alike k') (c : Cb) : c.seenBy k' = c.seenBy k := by
  unfold Cb.seenBy
  rw [h.ctx]

theorem Alike.has {k k' : Klass} (h : k.Alike k') (m : Mx) : k'.has m = k.has m := by
  unfold Klass.has
  rw [Bool.eq_iff_iff, List.contains_iff_mem, List.contains_iff_mem, ← mem_chain, ← mem_chain, h.1]

theorem Alike.nrConnections {k k' : Klass} (h : k.Alike k') : k'.nrConnections = k.nrConnections := by
  unfold Klass.nrConnections
  rw [h.has]

theorem linearize_head {α : Type} [DecidableEq α] (c d : α) (b : List α) (m : List (List α)) :
    C3.linearize c b m = (C3.linearize d b m).map (fun l => c :: l.tail) := by
  unfold C3.linearize
  split
  · cases C3.merge (m ++ [b]) <;> rfl
  · rfl

/-- The number of the new class only names it. -/
theorem extend_number (n i : Nat) (c : Klass) (ms : List Mx) :
    extend n c ms = (extend i c ms).map (fun k => ⟨.dyn n :: k.mro.tail, .made (.dyn n) :: k.cb.tail⟩) := by
  obtain ⟨ks, h1, -⟩ := mapM_ofMx ms
  unfold extend
  rw [h1]
  show make (.dyn n) false (c :: ks) = (make (.dyn i) false (c :: ks)).map _
  unfold make
  dsimp only
  simp only [Bool.false_eq_true, if_false, List.nil_append]
  rw [linearize_head (Cls.dyn n) (Cls.dyn i), linearize_head (CbCls.made (.dyn n)) (CbCls.made (.dyn i))]
  cases C3.linearize (Cls.dyn i) ((c :: ks).filterMap (fun k => k.mro.head?)) ((c :: ks).map (·.mro)) with
  | error e => rfl
  | ok l =>
    cases C3.linearize (CbCls.made (.dyn i)) ((c :: ks).filterMap (fun k => k.cb.head?)) ((c :: ks).map (·.cb)) <;> rfl

end Klass

namespace Entity

/-- Renaming within the type: only the name and the number of classes change, and the behaviours stay. -/
theorem setName_fits {env : Env} {custom : Option Custom} {e : Entity} {s : String} {data t : Val} {ms : List Mx}
    (hs : e.strict = true) (hd : Dict.get? env.entities s = some data) (ht : data.subscript "type" = .ok t)
    (hm : mixinsFor custom t = .ok ms) (hk : e.klass.Fits e.depth ms) :
    e.setName env custom (.str s) = (.ok (), { e with
      name := s, klass := ⟨.dyn e.depth :: e.klass.mro, .made (.dyn e.depth) :: e.klass.cb⟩, depth := e.depth + 1 }) := by
  unfold setName
  rw [hs]
  simp only [Bool.not_true, Bool.false_eq_true, if_false, hd, ht, hm, hk.extend]

theorem setName_lax {env : Env} {custom : Option Custom} {e : Entity} {s : String} (hs : e.strict = false) :
    e.setName env custom (.str s) = (.ok (), { e with name := s }) := by
  unfold setName
  rw [if_pos (by rw [hs]; rfl)]

theorem setName_fresh {env : Env} {custom : Option Custom} {e : Entity} {v : Val}
    (h : e.klass.Fresh e.depth) : (e.setName env custom v).2.klass.Fresh (e.setName env custom v).2.depth := by
  unfold setName
  split
  · split <;> exact h
  · split
    · split
      · exact h
      · split
        · exact h
        · split
          · exact h
          · dsimp only
            split
            · exact h
            · rename_i k hk
              exact (Klass.extend_fits hk h).toFresh
    · exact h

end Entity

theorem Reachable.fresh {env : Env} {w : World} (h : Reachable env w) (r : Ref) :
    (w.heap r).klass.Fresh (w.heap r).depth := by
  refine h.entity (P := fun e => e.klass.Fresh e.depth) (Klass.entity_fresh 0) ?_ ?_ (fun _ _ h => h)
    (fun _ _ h => h) r
  · rintro env l e ⟨custom, kw, he⟩
    obtain ⟨-, -, name, position, number, e', -, -, -, hs, hf⟩ := Entity.new_ok.1 he
    obtain ⟨pos, dir, cb, a, -, -, -, -, rfl⟩ := Entity.finish_ok.1 hf
    have := Entity.setName_fresh (env := env) (custom := custom) (v := name)
      (e := Entity.raw0 l kw number) (Klass.entity_fresh 0)
    rw [hs] at this
    exact this
  · intro env e e' he heff
    cases heff with
    | rotate n a d =>
      obtain ⟨_, _, _, hf⟩ := Entity.rotate_frame e n a d
      rw [hf]
      exact he
    | setName c v => exact Entity.setName_fresh he
    | setPos p => exact he
    | setDir v d hd => exact he
    | setClass base ms k hb hk =>
      rcases hb with rfl | rfl
      · exact (Klass.extend_fits hk he).toFresh
      · exact (Klass.extend_fits hk (Klass.entity_fresh _)).toFresh
    | setNumber n => exact he
    | setOri v o h ht => exact he
    | setAttr k v => obtain ⟨_, hf⟩ := Entity.setAttr_frame env e k v; rw [hf]; exact he
    | setControl k v => obtain ⟨_, hf⟩ := Entity.setControl_frame env e k v; rw [hf]; exact he
    | newControl v => obtain ⟨_, hf⟩ := Entity.newControl_frame env e v; rw [hf]; exact he

/-! ## Exports after renaming -/

/-- The dict with another name. -/
def named (x : String) (d : Dict) : Dict := d.map (fun p => if p.1 = "name" then (p.1, .str x) else p)

theorem named_set (x : String) (d : Dict) {k : String} (hk : k ≠ "name") (v : Val) :
    named x (Dict.set d k v) = Dict.set (named x d) k v := by
  induction d with
  | nil =>
    show [if k = "name" then _ else _] = _
    rw [if_neg hk]
    rfl
  | cons p d ih =>
    obtain ⟨q, u⟩ := p
    have e1 : ∀ (d : Dict) (q : String) (u : Val), Dict.set ((q, u) :: d) k v =
      if q = k then (q, v) :: d else (q, u) :: Dict.set d k v := fun _ _ _ => rfl
    have e2 : ∀ (d : Dict) (q : String) (u : Val), named x ((q, u) :: d) =
      (if q = "name" then (q, .str x) else (q, u)) :: named x d := fun _ _ _ => rfl
    rw [e1, e2]
    by_cases hq : q = k
    · subst hq
      rw [if_pos rfl, if_neg hk, e2, if_neg hk, e1, if_pos rfl]
    · rw [if_neg hq, e2, ih]
      split
      · rw [e1, if_neg hq]
      · rw [e1, if_neg hq]

theorem named_setAll (x : String) (d w : Dict) (hk : ∀ p ∈ w, p.1 ≠ "name") :
    named x (setAll d w) = setAll (named x d) w := by
  induction w generalizing d with
  | nil => rfl
  | cons p w ih =>
    show named x (setAll (Dict.set d p.1 p.2) w) = setAll (Dict.set (named x d) p.1 p.2) w
    rw [ih _ (fun q hq => hk q (List.mem_cons_of_mem _ hq)), named_set x d (hk p (List.mem_cons_self ..))]

theorem emitChain_named (x : String) {env : Env} {dir : Direction} {ms : List Mx} {a : Kw} (obj : Dict) :
    emitChain env dir ms a (named x obj) = (emitChain env dir ms a obj).map (named x) := by
  induction ms generalizing obj with
  | nil => rfl
  | cons m ms ih =>
    unfold emitChain
    cases h : mxEmit env m a dir with
    | error e => rfl
    | ok w =>
      dsimp only
      rw [← ih, named_setAll]
      intro p hp he
      have := mxEmit_keys h p hp
      rw [he] at this
      exact reserved_emit (.inr (.inl rfl)) m this

/-- Only names and the numbers of classes are different. -/
structure Renamed (w w' : World) : Prop where
  env : w'.env = w.env
  bp : w'.bp = w.bp
  ent : ∀ r, w'.heap r = { w.heap r with
    name := (w'.heap r).name, klass := (w'.heap r).klass, depth := (w'.heap r).depth }
  klass : ∀ r, (w.heap r).klass.Alike (w'.heap r).klass

theorem Renamed.refl (w : World) : Renamed w w := ⟨rfl, rfl, fun _ => rfl, fun _ => .refl _⟩

theorem Renamed.trans {w w' w'' : World} (h : Renamed w w') (h' : Renamed w' w'') : Renamed w w'' := by
  refine ⟨h'.env.trans h.env, h'.bp.trans h.bp, fun r => ?_, fun r => (h.klass r).trans (h'.klass r)⟩
  have := h'.ent r
  rw [h.ent r] at this
  exact this

theorem Renamed.emitRest {w w' : World} (h : Renamed w w') (r : Ref) (obj : Dict) (x : String) :
    (w'.heap r).emitRest w'.env (named x obj) = ((w.heap r).emitRest w.env obj).map (named x) := by
  unfold Entity.emitRest
  have e1 : (w'.heap r).dir = (w.heap r).dir := by rw [h.ent r]
  have e2 : (w'.heap r).attrs = (w.heap r).attrs := by rw [h.ent r]
  have e3 : (w'.heap r).cb = (w.heap r).cb := by rw [h.ent r]
  rw [e1, e2, e3, h.env, (h.klass r).1, emitChain_named]
  cases emitChain w.env (w.heap r).dir (w.heap r).klass.chain (Dict.get? (w.heap r).attrs) obj with
  | error e => rfl
  | ok o =>
    show (match (w.heap r).cb with | none => _ | some c => _) = Except.map _ (match (w.heap r).cb with | none => _ | some c => _)
    cases (w.heap r).cb with
    | none => rfl
    | some c =>
      dsimp only
      rw [(h.klass r).seenBy]
      cases (c.seenBy (w.heap r).klass).toJson w.env with
      | error e => rfl
      | ok o' =>
        cases o' with
        | none => rfl
        | some d =>
          show Except.ok (Dict.set (named x o) _ _) = Except.ok (named x (Dict.set o _ _))
          rw [named_set x o (by decide)]

theorem Renamed.connections {w w' : World} (h : Renamed w w') (r : Ref) :
    (connectionsToJson r w').1 = (connectionsToJson r w).1 := by
  have hauto : ∀ s, (w'.heap s).auto = (w.heap s).auto := fun s => by rw [h.ent s]
  have hlayer : (w'.heap r).layer = (w.heap r).layer := by rw [h.ent r]
  have hother : otherAuto w'.heap = otherAuto w.heap := by
    funext c
    unfold otherAuto
    cases c.toE with
    | none => rfl
    | some t => simp only [hauto]
  have hstep : wireStep w'.heap r = wireStep w.heap r := by
    funext o c
    unfold wireStep wireRef
    cases c.toE with
    | none => rfl
    | some t => simp only [hauto, (h.klass _).nrConnections]
  have hg : (getConnections r w').1 = (getConnections r w).1 ∧
      (getConnections r w').2.heap = w'.heap ∧ (getConnections r w).2.heap = w.heap := by
    unfold getConnections
    rw [hlayer, h.bp]
    cases (w.heap r).layer with
    | none => exact ⟨rfl, rfl, rfl⟩
    | some b =>
      dsimp only
      rw [show (w'.setBp b { w.bp b with conns := (w.bp b).conns.map (fun c => if c.attachedTo r then c.orientate r else c) }).heap = w'.heap from rfl,
        show (w.setBp b { w.bp b with conns := (w.bp b).conns.map (fun c => if c.attachedTo r then c.orientate r else c) }).heap = w.heap from rfl,
        hother]
      cases List.mapM (fun c => do return ((← otherAuto w.heap c), c)) (((w.bp b).conns.filter (·.attachedTo r)).map (·.orientate r)) with
      | error e => exact ⟨rfl, rfl, rfl⟩
      | ok keyed => dsimp only; split <;> exact ⟨rfl, rfl, rfl⟩
  unfold connectionsToJson
  rw [M.bind_eq, M.bind_eq]
  obtain ⟨h1, h2, h3⟩ := hg
  revert h1 h2 h3
  cases getConnections r w' with
  | mk x v' =>
    cases getConnections r w with
    | mk y v =>
      intro h1 h2 h3
      dsimp only at h1 h2 h3
      subst h1
      cases x with
      | error e => rfl
      | ok cs =>
        dsimp only
        rw [M.bind_get, M.bind_get, h2, h3, hstep]
        rfl

/-- The export of an entity after renaming: the same but for the name. -/
theorem Renamed.entToJson {w w' : World} (h : Renamed w w') (r : Ref) : (entToJson r w').1 =
    (entToJson r w).1.map (fun v => match v with | .dict d => .dict (named (w'.heap r).name d) | v => v) := by
  have hc := h.connections r
  have hpos : (w'.heap r).pos = (w.heap r).pos := by rw [h.ent r]
  have hauto : (w'.heap r).auto = (w.heap r).auto := by rw [h.ent r]
  unfold Verif.entToJson
  rw [M.bind_get, M.bind_get, M.bind_eq, M.bind_eq, hpos, hauto]
  revert hc
  cases connectionsToJson r w' with
  | mk x v' =>
    cases connectionsToJson r w with
    | mk y v =>
      intro hc
      dsimp only at hc
      subst hc
      cases x with
      | error e => rfl
      | ok o =>
        dsimp only
        rw [M.bind_eq, M.bind_eq, M.lift_eq, M.lift_eq]
        have key := h.emitRest r (if o.isEmpty then
            [("entity_number", autoVal (w.heap r).auto), ("name", .str (w.heap r).name), ("position", (w.heap r).pos.toJson)]
          else [("entity_number", autoVal (w.heap r).auto), ("name", .str (w.heap r).name), ("position", (w.heap r).pos.toJson)]
            ++ [("connections", wireJson o)]) (w'.heap r).name
        have e : named (w'.heap r).name (if o.isEmpty then
            [("entity_number", autoVal (w.heap r).auto), ("name", .str (w.heap r).name), ("position", (w.heap r).pos.toJson)]
          else [("entity_number", autoVal (w.heap r).auto), ("name", .str (w.heap r).name), ("position", (w.heap r).pos.toJson)]
            ++ [("connections", wireJson o)]) = if o.isEmpty then
            [("entity_number", autoVal (w.heap r).auto), ("name", .str (w'.heap r).name), ("position", (w.heap r).pos.toJson)]
          else [("entity_number", autoVal (w.heap r).auto), ("name", .str (w'.heap r).name), ("position", (w.heap r).pos.toJson)]
            ++ [("connections", wireJson o)] := by
          split <;> rfl
        rw [e] at key
        rw [key]
        cases (w.heap r).emitRest w.env _ <;> rfl

open Spec

/-- What renaming the entity `r` to the names one after the other amounts to. -/
theorem rename_all {r : Ref} {s : String} (names : List String) {w1 : World}
    (hs : ∀ n ∈ names, SameType w1.env n s) (hname : (w1.heap r).name = s)
    (hfit : (w1.heap r).strict = true → ∃ data t ms, Dict.get? w1.env.entities s = some data ∧
      data.subscript "type" = .ok t ∧ mixinsFor (w1.customOf (w1.heap r).layer) t = .ok ms ∧
      (w1.heap r).klass.Fits (w1.heap r).depth ms) :
    ∃ w2, M.forEach (fun n => entSetName r (.str n)) names w1 = (.ok (), w2) ∧
      (w2.heap r).name = names.getLast?.getD s ∧ Renamed w1 w2 ∧ w2.next = w1.next ∧
      ∀ q, q ≠ r → w2.heap q = w1.heap q := by
  induction names generalizing w1 s with
  | nil => exact ⟨w1, rfl, hname, .refl _, rfl, fun _ _ => rfl⟩
  | cons n names ih =>
    obtain ⟨d, d', t, h1, h2, h3, h4⟩ := hs n (List.mem_cons_self ..)
    have step : ∃ w', entSetName r (.str n) w1 = (.ok (), w') ∧ (w'.heap r).name = n ∧ Renamed w1 w' ∧
        w'.next = w1.next ∧ (∀ q, q ≠ r → w'.heap q = w1.heap q) ∧
        ((w'.heap r).strict = true → ∃ data t ms, Dict.get? w'.env.entities n = some data ∧
          data.subscript "type" = .ok t ∧ mixinsFor (w'.customOf (w'.heap r).layer) t = .ok ms ∧
          (w'.heap r).klass.Fits (w'.heap r).depth ms) := by
      cases hst : (w1.heap r).strict with
      | false =>
        have e : entSetName r (.str n) w1 = (.ok (), w1.setEnt r { w1.heap r with name := n }) := by
          unfold entSetName
          dsimp only
          rw [Entity.setName_lax hst]
        refine ⟨_, e, ?_, ⟨rfl, rfl, fun q => ?_, fun q => ?_⟩, rfl, fun q hq => ?_, ?_⟩
        · rw [setEnt_heap, if_pos rfl]
        · rw [setEnt_heap]
          split
          · rename_i hq; subst hq; rfl
          · rfl
        · rw [setEnt_heap]
          split
          · rename_i hq; subst hq; exact .refl _
          · exact .refl _
        · rw [setEnt_heap, if_neg hq]
        · rw [setEnt_heap, if_pos rfl, hst]
          exact fun h => by cases h
      | true =>
        obtain ⟨data, t', ms, g1, g2, g3, g4⟩ := hfit hst
        have hd' : data = .dict d' := by
          unfold Dict.get? at g1
          rw [h2] at g1
          cases g1
          rfl
        subst hd'
        have ht' : t' = t := by
          have : (Val.dict d').subscript "type" = .ok t := (lookup_getItem ..).2 h4
          rw [this] at g2
          cases g2
          rfl
        subst ht'
        have ht : (Val.dict d).subscript "type" = .ok t' := (lookup_getItem ..).2 h3
        have hset := Entity.setName_fits (custom := w1.customOf (w1.heap r).layer) hst h1 ht g3 g4
        have e : entSetName r (.str n) w1 = (.ok (), w1.setEnt r { w1.heap r with
            name := n,
            klass := ⟨.dyn (w1.heap r).depth :: (w1.heap r).klass.mro, .made (.dyn (w1.heap r).depth) :: (w1.heap r).klass.cb⟩,
            depth := (w1.heap r).depth + 1 }) := by
          unfold entSetName
          dsimp only
          rw [hset]
        refine ⟨_, e, ?_, ⟨rfl, rfl, fun q => ?_, fun q => ?_⟩, rfl, fun q hq => ?_, ?_⟩
        · rw [setEnt_heap, if_pos rfl]
        · rw [setEnt_heap]
          split
          · rename_i hq; subst hq; rfl
          · rfl
        · rw [setEnt_heap]
          split
          · rename_i hq; subst hq; exact Klass.alike_cons _ _
          · exact .refl _
        · rw [setEnt_heap, if_neg hq]
        · rw [setEnt_heap, if_pos rfl]
          intro _
          exact ⟨.dict d, t', ms, h1, ht, g3, g4.next⟩
    obtain ⟨w', e, hn, hr, hnx, hq, hfit'⟩ := step
    have hs' : ∀ m ∈ names, SameType w'.env m n := by
      intro m hm
      obtain ⟨a, a', t', k1, k2, k3, k4⟩ := hs m (List.mem_cons_of_mem _ hm)
      rw [h2] at k2
      cases k2
      rw [h4] at k4
      cases k4
      rw [hr.env]
      exact ⟨a, d, t, k1, h1, k3, h3⟩
    obtain ⟨w2, f1, f2, f3, f4, f5⟩ := ih hs' hn hfit'
    refine ⟨w2, ?_, ?_, hr.trans f3, f4.trans hnx, fun q hqr => (f5 q hqr).trans (hq q hqr)⟩
    · show M.bind (entSetName r (.str n)) _ w1 = _
      unfold M.bind
      rw [e]
      exact f1
    · rw [f2]
      cases names with
      | nil => rfl
      | cons a l => rw [List.getLast?_cons_cons]; cases h : (a :: l).getLast? with
        | none => simp at h
        | some x => rfl

theorem entSetName_fits {env : Env} {w w1 : World} (h : Reachable env w) {r : Ref} {s : String}
    (h1 : entSetName r (.str s) w = (.ok (), w1)) : w1.env = w.env ∧ (w1.heap r).name = s ∧
    ((w1.heap r).strict = true → ∃ data t ms, Dict.get? w1.env.entities s = some data ∧
      data.subscript "type" = .ok t ∧ mixinsFor (w1.customOf (w1.heap r).layer) t = .ok ms ∧
      (w1.heap r).klass.Fits (w1.heap r).depth ms) := by
  unfold entSetName at h1
  dsimp only at h1
  cases hp : (w.heap r).setName w.env (w.customOf (w.heap r).layer) (.str s) with
  | mk x e =>
    rw [hp] at h1
    obtain ⟨rfl, rfl⟩ := Prod.mk.inj h1
    obtain ⟨s', hs', hcase⟩ := Entity.setName_ok hp
    cases hs'
    refine ⟨rfl, ?_, ?_⟩
    · rw [setEnt_heap, if_pos rfl]
      rcases hcase with ⟨-, rfl⟩ | ⟨-, _, _, _, _, -, -, -, -, rfl⟩ <;> rfl
    · rw [setEnt_heap, if_pos rfl]
      rcases hcase with ⟨hs, rfl⟩ | ⟨hs, data, t, ms, k, d1, d2, d3, d4, rfl⟩
      · intro hst
        dsimp only at hst
        rw [hs] at hst
        cases hst
      · exact fun _ => ⟨data, t, ms, d1, d2, d3, Klass.extend_fits d4 (h.fresh r)⟩

theorem newEntity_fits {w w1 : World} {l : Option BpId} {kw : Dict} {r : Ref}
    (h1 : newEntity l kw w = (.ok r, w1)) : w1.env = w.env ∧
    ((w1.heap r).strict = true → ∃ data t ms, Dict.get? w1.env.entities (w1.heap r).name = some data ∧
      data.subscript "type" = .ok t ∧ mixinsFor (w1.customOf (w1.heap r).layer) t = .ok ms ∧
      (w1.heap r).klass.Fits (w1.heap r).depth ms) := by
  obtain ⟨e, he, rfl, rfl⟩ := newEntity_ok h1
  refine ⟨rfl, ?_⟩
  dsimp only
  rw [setEnt_heap, if_pos rfl]
  obtain ⟨-, -, name, position, number, e', -, -, -, hn, hf⟩ := Entity.new_ok.1 he
  obtain ⟨pos, dir, cb, a, -, -, -, -, rfl⟩ := Entity.finish_ok.1 hf
  obtain ⟨s, -, hcase⟩ := Entity.setName_ok hn
  rcases hcase with ⟨hs, rfl⟩ | ⟨hs, data, t, ms, k, d1, d2, d3, d4, rfl⟩
  · intro hst
    dsimp only at hst
    rw [hs] at hst
    cases hst
  · exact fun _ => ⟨data, t, ms, d1, d2, d3, Klass.extend_fits d4 (Klass.entity_fresh 0)⟩

theorem Renamed.emitRest_same {w w' : World} (h : Renamed w w') (r : Ref) (obj : Dict) :
    (w'.heap r).emitRest w'.env obj = (w.heap r).emitRest w.env obj := by
  unfold Entity.emitRest
  have e1 : (w'.heap r).dir = (w.heap r).dir := by rw [h.ent r]
  have e2 : (w'.heap r).attrs = (w.heap r).attrs := by rw [h.ent r]
  have e3 : (w'.heap r).cb = (w.heap r).cb := by rw [h.ent r]
  simp only [e1, e2, e3, h.env, (h.klass r).1, (h.klass r).seenBy]

theorem Renamed.entToJson_same {w w' : World} (h : Renamed w w') {r : Ref} (hn : (w'.heap r).name = (w.heap r).name) :
    (Verif.entToJson r w').1 = (Verif.entToJson r w).1 := by
  have hc := h.connections r
  have hpos : (w'.heap r).pos = (w.heap r).pos := by rw [h.ent r]
  have hauto : (w'.heap r).auto = (w.heap r).auto := by rw [h.ent r]
  unfold Verif.entToJson
  rw [M.bind_get, M.bind_get, M.bind_eq, M.bind_eq, hpos, hauto, hn]
  revert hc
  cases connectionsToJson r w' with
  | mk x v' =>
    cases connectionsToJson r w with
    | mk y v =>
      intro hc
      dsimp only at hc
      subst hc
      cases x with
      | error e => rfl
      | ok o =>
        dsimp only
        rw [M.bind_eq, M.bind_eq, M.lift_eq, M.lift_eq, h.emitRest_same]
        cases (w.heap r).emitRest w.env _ <;> rfl

theorem lookup_named (x k : String) (d : Dict) : List.lookup k (named x d) =
    if k = "name" then (List.lookup "name" d).map (fun _ => .str x) else List.lookup k d := by
  induction d with
  | nil => rw [show named x [] = [] from rfl]; split <;> rfl
  | cons p d ih =>
    obtain ⟨q, u⟩ := p
    have e2 : named x ((q, u) :: d) = (if q = "name" then (q, .str x) else (q, u)) :: named x d := rfl
    rw [e2]
    by_cases hk : k = "name"
    · subst hk
      rw [if_pos rfl] at ih ⊢
      by_cases hq : q = "name"
      · subst hq
        rw [if_pos rfl, lookup_cons_if, lookup_cons_if, if_pos rfl, if_pos rfl]
        rfl
      · rw [if_neg hq, lookup_cons_if, lookup_cons_if, if_neg (fun h => hq h.symm), if_neg (fun h => hq h.symm), ih]
    · rw [if_neg hk] at ih ⊢
      by_cases hq : q = "name"
      · subst hq
        rw [if_pos rfl, lookup_cons_if, lookup_cons_if, if_neg hk, if_neg hk, ih]
      · rw [if_neg hq, lookup_cons_if, lookup_cons_if, ih]

theorem Renamed.sameButName {w w' : World} (h : Renamed w w') {r : Ref} {v : Val}
    (hv : (Verif.entToJson r w).1 = .ok v) :
    ∃ u, (Verif.entToJson r w').1 = .ok u ∧ SameButName (w'.heap r).name v u := by
  have hj := h.entToJson r
  rw [hv] at hj
  obtain ⟨d, o, rfl, -, -, hn, -⟩ := entToJson_ok (w' := (Verif.entToJson r w).2) (Prod.ext hv rfl)
  refine ⟨_, hj, d, named (w'.heap r).name d, rfl, rfl, ?_, ?_⟩
  · unfold named
    rw [List.map_map]
    congr 1
    funext p
    show (if p.1 = "name" then _ else _ : String × Val).1 = p.1
    split <;> rfl
  · intro k
    rw [lookup_named, hn]
    rfl

end Verif
