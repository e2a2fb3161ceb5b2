import Verif.Proofs.Wires
import Verif.Proofs.Dict
import Verif.Proofs.Content
import Std.Data.String.ToInt
/-!
# Helper lemmas: the exported connection lists
-/
set_option autoImplicit false

namespace Verif
open Spec

theorem equal_iff (c d : Conn) : Equal c d ↔ SameWire c d := by
  obtain ⟨f, t, a, b, k⟩ := c
  obtain ⟨f', t', a', b', k'⟩ := d
  simp only [Equal, ends, SameWire, Conn.flip, Conn.mk.injEq, Sym2.eq_iff, Prod.mk.injEq]
  tauto

/-! ## The nested dict -/

/-- The list under a connector and a colour. -/
def under (o : WireObj) (s : Int) (k : String) : List Val :=
  match o.lookup s with
  | none => []
  | some m => (m.lookup k).getD []

theorem lookup_cons_if {α β} [BEq α] [LawfulBEq α] [DecidableEq α] (a x : α) (b : β) (l : List (α × β)) :
    List.lookup a ((x, b) :: l) = if a = x then some b else List.lookup a l := by
  rw [List.lookup_cons]
  by_cases h : a = x
  · subst h; simp
  · have : (a == x) = false := by simpa using h
    simp [h, this]

theorem colorAppend_lookup (m : List (String × List Val)) (k k' : String) (l : List Val) :
    (colorAppend m k l).lookup k' =
      if k' = k then some ((m.lookup k).getD [] ++ l) else m.lookup k' := by
  induction m with
  | nil => simp only [colorAppend, lookup_cons_if, List.lookup_nil, Option.getD_none, List.nil_append]
  | cons p m ih =>
    obtain ⟨c, x⟩ := p
    unfold colorAppend
    split
    · rename_i h
      subst h
      simp only [lookup_cons_if]
      split <;> simp_all
    · rename_i h
      simp only [lookup_cons_if, ih]
      by_cases h1 : k' = c
      · subst h1; simp [h]
      · simp only [h1, if_false]
        by_cases h2 : k' = k
        · subst h2; simp [h1]
        · simp [h2]

theorem under_wireAppend (o : WireObj) (s s' : Int) (k k' : String) (l : List Val) :
    under (wireAppend o s k l) s' k' = under o s' k' ++ if s' = s ∧ k' = k then l else [] := by
  induction o with
  | nil =>
    simp only [wireAppend, under, lookup_cons_if, List.lookup_nil]
    by_cases h : s' = s
    · simp only [h, if_true, colorAppend_lookup, List.lookup_nil, true_and]
      split <;> simp
    · simp [h]
  | cons p o ih =>
    obtain ⟨t, m⟩ := p
    unfold wireAppend
    split
    · rename_i h
      subst h
      simp only [under, lookup_cons_if]
      by_cases h : s' = t
      · simp only [h, if_true, colorAppend_lookup, true_and]
        split
        · rename_i e; subst e; simp
        · simp
      · simp [h]
    · rename_i h
      by_cases h1 : s' = t
      · subst h1
        simp only [under, lookup_cons_if, if_true]
        simp [h]
      · simp only [under, lookup_cons_if, h1, if_false]
        exact ih

/-- What one wire contributes to the list under a connector and a colour. -/
def contrib (heap : Ref → Entity) (r t : Ref) (c : Conn) (s : Int) (k : String) : List Val :=
  (if t = r ∧ s = c.toSide ∧ k = c.color then [wireRef (heap r) c.fromSide] else []) ++
    (if s = c.fromSide ∧ k = c.color then [wireRef (heap t) c.fromSide] else [])

theorem wireStep_under {heap : Ref → Entity} {r : Ref} {o o' : WireObj} {c : Conn}
    (h : wireStep heap r o c = .ok o') :
    ∃ t, c.toE = some t ∧ ∀ s k, under o' s k = under o s k ++ contrib heap r t c s k := by
  unfold wireStep at h
  split at h
  · cases h
  · rename_i t hto
    cases h
    refine ⟨t, hto, fun s k => ?_⟩
    rw [under_wireAppend]
    unfold contrib
    by_cases e : t = r
    · simp only [e, if_true, true_and]
      rw [under_wireAppend, under_wireAppend]
      simp
    · simp only [e, if_false, false_and]
      rw [under_wireAppend]
      simp

/-- The contributions of a list of wires. -/
def contribs (heap : Ref → Entity) (r : Ref) (cs : List Conn) (s : Int) (k : String) : List Val :=
  cs.flatMap (fun c => match c.toE with | some t => contrib heap r t c s k | none => [])

theorem foldlM_under {heap : Ref → Entity} {r : Ref} {cs : List Conn} {o o' : WireObj}
    (h : cs.foldlM (wireStep heap r) o = .ok o') (s : Int) (k : String) :
    under o' s k = under o s k ++ contribs heap r cs s k := by
  induction cs generalizing o with
  | nil => cases h; simp [contribs]
  | cons c cs ih =>
    rw [List.foldlM_cons, bind_eq_ok] at h
    obtain ⟨o1, h1, h⟩ := h
    obtain ⟨t, hto, hu⟩ := wireStep_under h1
    rw [ih h, hu]
    simp [contribs, hto]

/-! ## `get_connections` -/

theorem getConnections_ok {r : Ref} {w w' : World} {cs : List Conn} (h : getConnections r w = (.ok cs, w')) :
    ∃ b, (w.heap r).layer = some b ∧
      w' = w.setBp b { w.bp b with conns := (w.bp b).conns.map (orientFor r) } ∧
      cs.Perm (((w.bp b).conns.filter (·.attachedTo r)).map (·.orientate r)) := by
  unfold getConnections at h
  split at h
  · cases h
  · rename_i b hb
    dsimp only at h
    split at h
    · cases h
    · rename_i keyed hk
      split at h
      · cases h
      · cases h
        refine ⟨b, hb, rfl, ?_⟩
        have : keyed.map (·.2) = ((w.bp b).conns.filter (·.attachedTo r)).map (·.orientate r) := by
          generalize ((w.bp b).conns.filter (·.attachedTo r)).map (·.orientate r) = l at hk
          rename_i hm; clear hb hm
          induction l generalizing keyed with
          | nil => cases hk; rfl
          | cons a l ih =>
            rw [List.mapM_cons] at hk
            simp only [bind_eq_ok, pure_eq_ok, Except.ok.injEq] at hk
            obtain ⟨x, ⟨y, -, rfl⟩, xs, hxs, rfl⟩ := hk
            rw [List.map_cons, ih xs (by simpa using hxs)]
        rw [← this]
        exact (sortBy_perm _ _).map _

theorem getConnections_error {r : Ref} {w w' : World} {e : Exc} (h : getConnections r w = (.error e, w')) :
    w' = w ∨ ∃ b, (w.heap r).layer = some b ∧
      w' = w.setBp b { w.bp b with conns := (w.bp b).conns.map (orientFor r) } := by
  unfold getConnections at h
  split at h
  · cases h; exact .inl rfl
  · rename_i b hb
    dsimp only at h
    split at h
    · cases h; exact .inr ⟨b, hb, rfl⟩
    · split at h
      · cases h; exact .inr ⟨b, hb, rfl⟩
      · cases h

theorem connectionsToJson_ok {r : Ref} {w w' : World} {o : WireObj} :
    connectionsToJson r w = (.ok o, w') ↔
      ∃ cs, getConnections r w = (.ok cs, w') ∧ cs.foldlM (wireStep w'.heap r) [] = .ok o := by
  unfold connectionsToJson
  simp only [M.bind_eq_ok, M.get_eq, M.lift_eq, Prod.mk.injEq, Except.ok.injEq]
  constructor
  · rintro ⟨cs, v, h1, _, _, ⟨rfl, rfl⟩, h2, rfl⟩
    exact ⟨cs, h1, h2⟩
  · rintro ⟨cs, h1, h2⟩
    exact ⟨cs, w', h1, w', w', ⟨rfl, rfl⟩, h2, rfl⟩

/-! ## Far ends -/

/-- Far ends of one wire. -/
def far1 (c : Conn) (r : Ref) (side : Int) (color : String) : List (Option Ref × Int) :=
  (if c.color = color ∧ c.fromE = some r ∧ c.fromSide = side then [(c.toE, c.toSide)] else []) ++
    (if c.color = color ∧ c.toE = some r ∧ c.toSide = side then [(c.fromE, c.fromSide)] else [])

theorem farEnds_eq (cs : List Conn) (r : Ref) (side : Int) (color : String) :
    farEnds cs r side color = cs.flatMap (fun c => far1 c r side color) := rfl

theorem far1_sameWire {c d : Conn} (h : SameWire c d) (r : Ref) (side : Int) (color : String) :
    (far1 c r side color).Perm (far1 d r side color) := by
  rcases h with rfl | rfl
  · exact .refl _
  · unfold far1
    exact List.perm_append_comm

theorem far1_not_attached {c : Conn} {r : Ref} (h : c.attachedTo r = false) (side : Int) (color : String) :
    far1 c r side color = [] := by
  have : ¬ (c.fromE = some r ∨ c.toE = some r) := by
    rw [← attachedTo_iff, h]; simp
  simp only [not_or] at this
  simp [far1, this.1, this.2]

theorem flatMap_perm_of {α β} {f g : α → List β} (l : List α) (h : ∀ a ∈ l, (f a).Perm (g a)) :
    (l.flatMap f).Perm (l.flatMap g) := by
  induction l with
  | nil => exact .refl _
  | cons a l ih =>
    rw [List.flatMap_cons, List.flatMap_cons]
    exact (h a (List.mem_cons_self ..)).append (ih (fun b hb => h b (List.mem_cons_of_mem _ hb)))

theorem farEnds_map {f : Conn → Conn} (hf : ∀ c, SameWire (f c) c) (cs : List Conn) (r : Ref) (side : Int)
    (color : String) : (farEnds (cs.map f) r side color).Perm (farEnds cs r side color) := by
  rw [farEnds_eq, farEnds_eq, List.flatMap_map]
  exact flatMap_perm_of cs (fun c _ => far1_sameWire (hf c) r side color)

theorem farEnds_attached (cs : List Conn) (r : Ref) (side : Int) (color : String) :
    (farEnds ((cs.filter (·.attachedTo r)).map (·.orientate r)) r side color).Perm
      (farEnds cs r side color) := by
  refine (farEnds_map (fun c => SameWire.orientate c r) _ r side color).trans ?_
  rw [farEnds_eq, farEnds_eq]
  induction cs with
  | nil => exact .refl _
  | cons c cs ih =>
    rw [List.filter_cons]
    split
    · rw [List.flatMap_cons, List.flatMap_cons]
      exact ih.append_left _
    · rename_i h
      rw [List.flatMap_cons, far1_not_attached (by simpa using h)]
      exact ih

/-! ## JSON -/

theorem lookup_map_inj {α β γ δ} [BEq α] [LawfulBEq α] [DecidableEq α] [BEq γ] [LawfulBEq γ] [DecidableEq γ]
    {f : α → γ} (hf : Function.Injective f)
    (g : β → δ) (l : List (α × β)) (a : α) :
    List.lookup (f a) (l.map (fun p => (f p.1, g p.2))) = (List.lookup a l).map g := by
  induction l with
  | nil => rfl
  | cons p l ih =>
    obtain ⟨x, y⟩ := p
    rw [List.map_cons, lookup_cons_if, lookup_cons_if, ih]
    by_cases h : a = x
    · simp [h]
    · have : f a ≠ f x := fun e => h (hf e)
      simp [h, this]

theorem refsAt_wireJson {d : Dict} {o : WireObj} (h : List.lookup "connections" d = some (wireJson o)) (s : Int)
    (k : String) : refsAt d s k = under o s k := by
  unfold refsAt under
  rw [h]
  unfold wireJson
  dsimp only
  rw [lookup_map_inj (f := Int.repr) (fun a b h => Int.repr_injective h)
    (fun m : List (String × List Val) => Val.dict (m.map (fun q => (q.1, Val.list q.2))))]
  cases List.lookup s o with
  | none => rfl
  | some m =>
    dsimp only [Option.map_some]
    have key := lookup_map_inj (f := fun x : String => x) (fun a b h => h) (fun m : List Val => Val.list m) m k
    rw [key]
    cases List.lookup k m <;> rfl

theorem listed_wireJson {o : WireObj} {side color : String} {v : Val} (h : Listed (wireJson o) side color v) :
    ∃ s m l, side = s.repr ∧ (s, m) ∈ o ∧ (color, l) ∈ m ∧ v ∈ l := by
  obtain ⟨sides, colors, vs, h1, h2, h3, h4⟩ := h
  unfold wireJson at h1
  cases h1
  obtain ⟨⟨s, m⟩, hs, he⟩ := List.mem_map.1 h2
  cases he
  obtain ⟨⟨c, l⟩, hc, he⟩ := List.mem_map.1 h3
  cases he
  exact ⟨s, m, l, rfl, hs, hc, h4⟩

/-- The keys of the nested dict are different. -/
def WireObj.Distinct (o : WireObj) : Prop := (o.map (·.1)).Nodup ∧ ∀ p ∈ o, (p.2.map (·.1)).Nodup

theorem colorAppend_keys (m : List (String × List Val)) (k : String) (l : List Val) :
    (colorAppend m k l).map (·.1) = if k ∈ m.map (·.1) then m.map (·.1) else m.map (·.1) ++ [k] := by
  induction m with
  | nil => simp [colorAppend]
  | cons p m ih =>
    obtain ⟨c, x⟩ := p
    unfold colorAppend
    split
    · rename_i h; subst h; simp
    · rename_i h
      simp only [List.map_cons, ih, List.mem_cons]
      have : ¬ k = c := fun e => h e.symm
      simp only [this, false_or]
      split <;> simp

theorem nodup_snoc_if {α} [DecidableEq α] {l : List α} {a : α} (h : l.Nodup) :
    (if a ∈ l then l else l ++ [a]).Nodup := by
  split
  · exact h
  · rename_i hn
    rw [List.nodup_append]
    refine ⟨h, by simp, ?_⟩
    intro x hx y hy e
    simp only [List.mem_singleton] at hy
    subst hy; subst e
    exact hn hx

theorem wireAppend_keys (o : WireObj) (s : Int) (k : String) (l : List Val) :
    (wireAppend o s k l).map (·.1) = if s ∈ o.map (·.1) then o.map (·.1) else o.map (·.1) ++ [s] := by
  induction o with
  | nil => simp [wireAppend]
  | cons p o ih =>
    obtain ⟨c, x⟩ := p
    unfold wireAppend
    split
    · rename_i h; subst h; simp
    · rename_i h
      simp only [List.map_cons, ih, List.mem_cons]
      have : ¬ s = c := fun e => h e.symm
      simp only [this, false_or]
      split <;> simp

theorem wireAppend_distinct {o : WireObj} (h : o.Distinct) (s : Int) (k : String) (l : List Val) :
    WireObj.Distinct (wireAppend o s k l) := by
  refine ⟨?_, ?_⟩
  · rw [wireAppend_keys]; exact nodup_snoc_if h.1
  · replace h := h.2
    induction o with
    | nil => intro p hp; simp [wireAppend, colorAppend] at hp; subst hp; simp
    | cons q o ih =>
      obtain ⟨c, x⟩ := q
      unfold wireAppend
      split
      · intro p hp
        rcases List.mem_cons.1 hp with rfl | hp
        · dsimp only
          rw [colorAppend_keys]
          exact nodup_snoc_if (h (c, x) (List.mem_cons_self ..))
        · exact h p (List.mem_cons_of_mem _ hp)
      · intro p hp
        rcases List.mem_cons.1 hp with rfl | hp
        · exact h (c, x) (List.mem_cons_self ..)
        · exact ih (fun p hp => h p (List.mem_cons_of_mem _ hp)) p hp

theorem wireStep_distinct {heap : Ref → Entity} {r : Ref} {o o' : WireObj} {c : Conn}
    (h : wireStep heap r o c = .ok o') (hd : o.Distinct) : o'.Distinct := by
  unfold wireStep at h
  split at h
  · cases h
  · cases h
    refine wireAppend_distinct ?_ _ _ _
    split
    · exact wireAppend_distinct (wireAppend_distinct hd _ _ _) _ _ _
    · exact wireAppend_distinct hd _ _ _

theorem foldlM_distinct {heap : Ref → Entity} {r : Ref} {cs : List Conn} {o o' : WireObj}
    (h : cs.foldlM (wireStep heap r) o = .ok o') (hd : o.Distinct) : o'.Distinct := by
  induction cs generalizing o with
  | nil => cases h; exact hd
  | cons c cs ih =>
    rw [List.foldlM_cons, bind_eq_ok] at h
    obtain ⟨o1, h1, h⟩ := h
    exact ih h (wireStep_distinct h1 hd)

theorem lookup_of_mem_nodup {α β} [BEq α] [LawfulBEq α] [DecidableEq α] {l : List (α × β)}
    (h : (l.map (·.1)).Nodup) {a : α} {b : β} (hm : (a, b) ∈ l) : List.lookup a l = some b := by
  induction l with
  | nil => cases hm
  | cons p l ih =>
    obtain ⟨x, y⟩ := p
    rw [List.map_cons, List.nodup_cons] at h
    rw [lookup_cons_if]
    rcases List.mem_cons.1 hm with e | hm'
    · cases e; simp
    · clear hm
      have : a ≠ x := by
        rintro rfl
        exact h.1 (List.mem_map.2 ⟨(a, b), hm', rfl⟩)
      rw [if_neg this]
      exact ih h.2 hm'

theorem mem_of_lookup {α β} [BEq α] [LawfulBEq α] {l : List (α × β)} {a : α} {b : β}
    (h : List.lookup a l = some b) : (a, b) ∈ l := by
  obtain ⟨l1, l2, rfl, -⟩ := List.lookup_eq_some_iff.1 h
  simp

/-- Everything listed in the exported value is found by `under`. -/
theorem listed_under {o : WireObj} (hd : o.Distinct) {side color : String} {v : Val} :
    Listed (wireJson o) side color v ↔ ∃ s : Int, side = s.repr ∧ v ∈ under o s color := by
  constructor
  · intro h
    obtain ⟨s, m, l, rfl, h1, h2, h3⟩ := listed_wireJson h
    refine ⟨s, rfl, ?_⟩
    unfold under
    rw [lookup_of_mem_nodup hd.1 h1]
    dsimp only
    rw [lookup_of_mem_nodup (hd.2 _ h1) h2]
    exact h3
  · rintro ⟨s, rfl, hv⟩
    unfold under at hv
    split at hv
    · cases hv
    · rename_i m hm
      cases hk : List.lookup color m with
      | none => rw [hk] at hv; cases hv
      | some l =>
        rw [hk] at hv
        exact ⟨_, _, l, rfl, List.mem_map.2 ⟨_, mem_of_lookup hm, rfl⟩,
          List.mem_map.2 ⟨_, mem_of_lookup hk, rfl⟩, hv⟩

/-! ## Entities -/

theorem emitRest_lookup {env : Env} {e : Entity} {obj obj' : Dict} {k : String}
    (h : e.emitRest env obj = .ok obj')
    (hk : k = "entity_number" ∨ k = "name" ∨ k = "position" ∨ k = "connections") :
    List.lookup k obj' = List.lookup k obj := by
  have hk' : k = "entity_number" ∨ k = "name" ∨ k = "position" ∨ k = "connections" ∨ k = "control_behavior" := by
    tauto
  have hc : k ≠ "control_behavior" := by
    rcases hk with rfl | rfl | rfl | rfl <;> decide
  unfold Entity.emitRest at h
  rw [bind_eq_ok] at h
  obtain ⟨o1, h1, h⟩ := h
  have := emitChain_lookup h1 (fun m _ => reserved_emit hk' m)
  split at h
  · cases h; exact this
  · rw [bind_eq_ok] at h
    obtain ⟨x, -, h⟩ := h
    split at h
    · cases h; exact this
    · cases h
      rw [lookup_set, if_neg hc]
      exact this

theorem entToJson_ok {r : Ref} {w w' : World} {v : Val} (h : entToJson r w = (.ok v, w')) :
    ∃ d o, v = .dict d ∧ connectionsToJson r w = (.ok o, w') ∧
      List.lookup "entity_number" d = some (autoVal (w.heap r).auto) ∧
      List.lookup "name" d = some (.str (w.heap r).name) ∧
      List.lookup "position" d = some (w.heap r).pos.toJson ∧
      List.lookup "connections" d = if o.isEmpty then none else some (wireJson o) := by
  unfold entToJson at h
  rw [M.bind_get, M.bind_eq_ok] at h
  obtain ⟨o, v1, h1, h⟩ := h
  rw [M.bind_eq_ok] at h
  obtain ⟨d, v2, h2, h⟩ := h
  cases h
  rw [M.lift_eq] at h2
  simp only [Prod.mk.injEq] at h2
  obtain ⟨h2, rfl⟩ := h2
  refine ⟨d, o, rfl, h1, ?_, ?_, ?_, ?_⟩
  · rw [emitRest_lookup h2 (by simp)]; split <;> rfl
  · rw [emitRest_lookup h2 (by simp)]; split <;> rfl
  · rw [emitRest_lookup h2 (by simp)]; split <;> rfl
  · rw [emitRest_lookup h2 (by simp)]
    split <;> rfl

theorem refsAt_export {d : Dict} {o : WireObj}
    (h : List.lookup "connections" d = if o.isEmpty then none else some (wireJson o)) (s : Int) (k : String) :
    refsAt d s k = under o s k := by
  split at h
  · rename_i he
    rw [List.isEmpty_iff] at he
    subst he
    unfold refsAt
    rw [h]
    rfl
  · exact refsAt_wireJson h s k

/-! ## Exporting changes nothing but the order of the ends of wires -/

/-- Two worlds that differ only in the order of the ends of wires. -/
structure SameUpToFlips (w w' : World) : Prop where
  env : w'.env = w.env
  heap : w'.heap = w.heap
  next : w'.next = w.next
  bp : ∀ b, w'.bp b = { w.bp b with conns := (w'.bp b).conns }
  conns : ∀ b, List.Forall₂ SameWire (w'.bp b).conns (w.bp b).conns

theorem forall₂_refl' {α} {R : α → α → Prop} (h : ∀ a, R a a) (l : List α) : List.Forall₂ R l l := by
  induction l with
  | nil => exact .nil
  | cons a l ih => exact .cons (h a) ih

theorem forall₂_trans' {α} {R : α → α → Prop} (h : ∀ {a b c}, R a b → R b c → R a c) {l m n : List α}
    (h1 : List.Forall₂ R l m) (h2 : List.Forall₂ R m n) : List.Forall₂ R l n := by
  induction h1 generalizing n with
  | nil => exact h2
  | cons ha _ ih => cases h2 with | cons hb h2 => exact .cons (h ha hb) (ih h2)

theorem forall₂_map' {α} {R : α → α → Prop} {f : α → α} (h : ∀ a, R (f a) a) (l : List α) :
    List.Forall₂ R (l.map f) l := by
  induction l with
  | nil => exact .nil
  | cons a l ih => exact .cons (h a) ih

theorem SameUpToFlips.refl (w : World) : SameUpToFlips w w :=
  ⟨rfl, rfl, rfl, fun _ => rfl, fun _ => forall₂_refl' SameWire.refl _⟩

theorem SameUpToFlips.trans {u v w : World} (h : SameUpToFlips u v) (h' : SameUpToFlips v w) :
    SameUpToFlips u w :=
  ⟨h'.env.trans h.env, h'.heap.trans h.heap, h'.next.trans h.next, fun b => by rw [h'.bp b, h.bp b],
    fun b => forall₂_trans' (R := SameWire) (fun h1 h2 => SameWire.trans h1 h2) (h'.conns b) (h.conns b)⟩

theorem SameUpToFlips.orient (w : World) (b : BpId) (r : Ref) :
    SameUpToFlips w (w.setBp b { w.bp b with conns := (w.bp b).conns.map (orientFor r) }) := by
  refine ⟨rfl, rfl, rfl, fun c => ?_, fun c => ?_⟩ <;> rw [setBp_bp]
  · split
    · rename_i e; subst e; rfl
    · rfl
  · split
    · rename_i e; subst e
      exact forall₂_map' (SameWire.orientFor r) _
    · exact forall₂_refl' SameWire.refl _

theorem Keeps.flips_getConnections (w₀ : World) (r : Ref) : Keeps (SameUpToFlips w₀) (Verif.getConnections r) := by
  refine ⟨fun w hw => hw.trans ?_⟩
  cases h : Verif.getConnections r w with
  | mk res w' =>
    cases res with
    | ok cs =>
      obtain ⟨b, -, rfl, -⟩ := getConnections_ok h
      exact .orient w b r
    | error e =>
      rcases getConnections_error h with rfl | ⟨b, -, rfl⟩
      · exact .refl _
      · exact .orient w b r

theorem Keeps.flips_entToJson (w₀ : World) (r : Ref) : Keeps (SameUpToFlips w₀) (entToJson r) := by
  refine Keeps.bind Keeps.get (fun w => ?_)
  refine Keeps.bind ?_ (fun c => ?_)
  · exact Keeps.bind (Keeps.flips_getConnections w₀ r)
      (fun _ => Keeps.bind Keeps.get (fun _ => Keeps.lift _))
  · exact Keeps.bind (Keeps.lift _) (fun _ => Keeps.pure _)

theorem Keeps.flips_toJson (w₀ : World) (b : BpId) : Keeps (SameUpToFlips w₀) (toJson b) := by
  refine Keeps.bind Keeps.get (fun w => ?_)
  refine Keeps.bind (Keeps.mapL (fun r => Keeps.flips_entToJson w₀ r) _) (fun _ => ?_)
  exact Keeps.bind (Keeps.lift _) (fun _ => Keeps.pure _)

/-- The elements of a list comprehension over computations that keep `I`. -/
theorem mapL_get {α β} {f : α → M β} {I : World → Prop} (hf : ∀ a, Keeps I (f a)) {l : List α} {w w' : World}
    {bs : List β} (h : M.mapL f l w = (.ok bs, w')) (hw : I w) :
    bs.length = l.length ∧ ∀ i (hi : i < l.length), ∃ v v' b, I v ∧ bs[i]? = some b ∧ f l[i] v = (.ok b, v') := by
  induction l generalizing w bs with
  | nil =>
    cases h
    exact ⟨rfl, fun i hi => absurd hi (Nat.not_lt_zero _)⟩
  | cons a l ih =>
    change (f a >>= fun b => M.mapL f l >>= fun bs => (pure (b :: bs) : M (List β))) w = _ at h
    rw [M.bind_eq_ok] at h
    obtain ⟨b, v, h1, h⟩ := h
    rw [M.bind_eq_ok] at h
    obtain ⟨cs, u, h2, h⟩ := h
    cases h
    have hv : I v := by have := (hf a).1 w hw; rw [h1] at this; exact this
    obtain ⟨hl, hi⟩ := ih h2 hv
    refine ⟨by simp [hl], fun i hi' => ?_⟩
    cases i with
    | zero => exact ⟨w, v, b, hw, rfl, h1⟩
    | succ i => exact hi i (by simpa using hi')

theorem farEnds_forall₂ {cs ds : List Conn} (h : List.Forall₂ SameWire cs ds) (r : Ref) (side : Int)
    (color : String) : (farEnds cs r side color).Perm (farEnds ds r side color) := by
  rw [farEnds_eq, farEnds_eq]
  induction h with
  | nil => exact .refl _
  | cons h _ ih => exact (far1_sameWire h r side color).append ih

/-! ## The references in the export of one entity -/

/-- The far entity's number as it appears in a reference. -/
def numOf (heap : Ref → Entity) (p : Option Ref × Int) : Option Val :=
  p.1.map (fun s => autoVal (heap s).auto)

theorem entry_wireRef (e : Entity) (z : Int) : entry "entity_id" (wireRef e z) = some (autoVal e.auto) := rfl

theorem contrib_ids {heap : Ref → Entity} {r t : Ref} {c : Conn} (hf : c.fromE = some r) (ht : c.toE = some t)
    (s : Int) (k : String) :
    ((contrib heap r t c s k).map (entry "entity_id")).Perm ((far1 c r s k).map (numOf heap)) := by
  unfold contrib far1
  rw [List.map_append, List.map_append]
  refine List.perm_append_comm.trans (List.Perm.append ?_ ?_)
  · rw [hf, ht]
    by_cases h : s = c.fromSide ∧ k = c.color
    · rw [if_pos h, if_pos ⟨h.2.symm, rfl, h.1.symm⟩]
      simp [entry_wireRef, numOf]
    · rw [if_neg h, if_neg (fun x => h ⟨x.2.2.symm, x.1.symm⟩)]
      exact .refl _
  · rw [hf, ht]
    by_cases h : t = r ∧ s = c.toSide ∧ k = c.color
    · rw [if_pos h, if_pos ⟨h.2.2.symm, by rw [h.1], h.2.1.symm⟩]
      simp [entry_wireRef, numOf]
    · rw [if_neg h, if_neg (fun x => h ⟨Option.some.inj x.2.1, x.2.2.symm, x.1.symm⟩)]
      exact .refl _

theorem foldlM_toE {heap : Ref → Entity} {r : Ref} {cs : List Conn} {o o' : WireObj}
    (h : cs.foldlM (wireStep heap r) o = .ok o') : ∀ c ∈ cs, ∃ t, c.toE = some t := by
  induction cs generalizing o with
  | nil => simp
  | cons c cs ih =>
    rw [List.foldlM_cons, bind_eq_ok] at h
    obtain ⟨o1, h1, h⟩ := h
    obtain ⟨t, ht, -⟩ := wireStep_under h1
    intro d hd
    rcases List.mem_cons.1 hd with rfl | hd
    · exact ⟨t, ht⟩
    · exact ih h d hd

/-- The wires of `r` with the exported lists: which references are listed, with multiplicity. -/
theorem connectionsToJson_refs {r : Ref} {w w' : World} {o : WireObj} {b : BpId}
    (hl : (w.heap r).layer = some b) (h : connectionsToJson r w = (.ok o, w')) :
    o.Distinct ∧ w'.heap = w.heap ∧ ∃ cs, (∀ c ∈ cs, c.fromE = some r ∧ ∃ t, c.toE = some t) ∧
      (∀ c ∈ cs, ∃ d ∈ (w.bp b).conns, c = d.orientate r ∧ d.attachedTo r = true) ∧
      (∀ s k, under o s k = contribs w.heap r cs s k) ∧
      (∀ s k, (farEnds cs r s k).Perm (farEnds (w.bp b).conns r s k)) := by
  obtain ⟨cs, hg, hf⟩ := connectionsToJson_ok.1 h
  obtain ⟨b', hb', rfl, hp⟩ := getConnections_ok hg
  rw [hl] at hb'
  cases hb'
  rw [setBp_heap] at hf
  refine ⟨foldlM_distinct hf ⟨by simp, by simp⟩, rfl, cs, ?_, ?_, ?_, ?_⟩
  · intro c hc
    refine ⟨?_, foldlM_toE hf c hc⟩
    obtain ⟨d, hd, rfl⟩ := List.mem_map.1 (hp.mem_iff.1 hc)
    exact orientate_to (List.mem_filter.1 hd).2
  · intro c hc
    obtain ⟨d, hd, rfl⟩ := List.mem_map.1 (hp.mem_iff.1 hc)
    exact ⟨d, (List.mem_filter.1 hd).1, rfl, (List.mem_filter.1 hd).2⟩
  · intro s k
    rw [foldlM_under hf]
    rfl
  · intro s k
    refine List.Perm.trans ?_ (farEnds_attached (w.bp b).conns r s k)
    rw [farEnds_eq, farEnds_eq]
    exact hp.flatMap_right _

theorem contribs_ids {heap : Ref → Entity} {r : Ref} {cs : List Conn}
    (h : ∀ c ∈ cs, c.fromE = some r ∧ ∃ t, c.toE = some t) (s : Int) (k : String) :
    ((contribs heap r cs s k).map (entry "entity_id")).Perm ((farEnds cs r s k).map (numOf heap)) := by
  rw [farEnds_eq]
  unfold contribs
  rw [List.map_flatMap, List.map_flatMap]
  refine flatMap_perm_of cs (fun c hc => ?_)
  obtain ⟨hf, t, ht⟩ := h c hc
  rw [ht]
  exact contrib_ids hf ht s k

theorem mem_farEnds {cs : List Conn} {r : Ref} {side : Int} {color : String} {p : Option Ref × Int} :
    p ∈ farEnds cs r side color ↔ ∃ c ∈ cs, c.color = color ∧
      ((c.fromE = some r ∧ c.fromSide = side ∧ c.toE = p.1 ∧ c.toSide = p.2) ∨
       (c.toE = some r ∧ c.toSide = side ∧ c.fromE = p.1 ∧ c.fromSide = p.2)) := by
  obtain ⟨f, z⟩ := p
  rw [farEnds_eq, List.mem_flatMap]
  constructor
  · rintro ⟨c, hc, h⟩
    refine ⟨c, hc, ?_⟩
    unfold far1 at h
    rcases List.mem_append.1 h with h | h
    · split at h
      · rename_i hh
        simp only [List.mem_singleton, Prod.mk.injEq] at h
        exact ⟨hh.1, .inl ⟨hh.2.1, hh.2.2, h.1.symm, h.2.symm⟩⟩
      · cases h
    · split at h
      · rename_i hh
        simp only [List.mem_singleton, Prod.mk.injEq] at h
        exact ⟨hh.1, .inr ⟨hh.2.1, hh.2.2, h.1.symm, h.2.symm⟩⟩
      · cases h
  · rintro ⟨c, hc, h1, h⟩
    refine ⟨c, hc, ?_⟩
    unfold far1
    rcases h with ⟨h2, h3, rfl, rfl⟩ | ⟨h2, h3, rfl, rfl⟩
    · exact List.mem_append_left _ (by rw [if_pos ⟨h1, h2, h3⟩]; simp)
    · exact List.mem_append_right _ (by rw [if_pos ⟨h1, h2, h3⟩]; simp)

theorem listAt_entities {p : Bp} {es icons scheds ents : List Val}
    (h : ListAt (exportDict p es icons scheds) "entities" ents) : ents = es := by
  rcases h with h | ⟨h, rfl⟩
  · rw [(export_lookup _ _ _ _).2.2.2.1] at h
    split at h
    · cases h
    · cases h; rfl
  · rw [(export_lookup _ _ _ _).2.2.2.1] at h
    split at h
    · rename_i e; exact e.symm
    · cases h

theorem pairwise_forall₂ {cs ds : List Conn} (h : List.Forall₂ SameWire cs ds)
    (hp : ds.Pairwise (fun a b => ¬ SameWire a b)) : cs.Pairwise (fun a b => ¬ SameWire a b) := by
  induction h with
  | nil => exact .nil
  | @cons c d cs ds h hf ih =>
    rw [List.pairwise_cons] at hp ⊢
    refine ⟨fun x hx hs => ?_, ih hp.2⟩
    obtain ⟨y, hy, hxy⟩ := forall₂_mem hf x hx
    exact hp.1 y hy ((h.symm.trans hs).trans hxy)
where
  forall₂_mem {cs ds : List Conn} (h : List.Forall₂ SameWire cs ds) : ∀ x ∈ cs, ∃ y ∈ ds, SameWire x y := by
    induction h with
    | nil => simp
    | cons h _ ih =>
      intro x hx
      rcases List.mem_cons.1 hx with rfl | hx
      · exact ⟨_, List.mem_cons_self .., h⟩
      · obtain ⟨y, hy, hs⟩ := ih x hx
        exact ⟨y, List.mem_cons_of_mem _ hy, hs⟩

theorem export_wires {w w' : World} (h : Owned w) {b : BpId} {v : Val} {o : Dict}
    {ents : List Val} (he : toJson b w = (.ok v, w')) (ho : Content v o) (hents : ListAt o "entities" ents) :
    ents.length = (w.bp b).objs.length ∧ ∀ i (hi : i < (w.bp b).objs.length), ∃ d cs,
      ents[i]? = some (.dict d) ∧
      List.lookup "entity_number" d = some (autoVal (w.heap (w.bp b).objs[i]).auto) ∧
      (∀ c ∈ cs, c.fromE = some (w.bp b).objs[i] ∧ ∃ t, c.toE = some t) ∧
      (∀ c ∈ cs, ∃ d ∈ (w.bp b).conns, SameWire c d) ∧
      (∀ s k, refsAt d s k = contribs w.heap (w.bp b).objs[i] cs s k) ∧
      (∀ s k, (farEnds cs (w.bp b).objs[i] s k).Perm (farEnds (w.bp b).conns (w.bp b).objs[i] s k)) ∧
      ∀ raw side color u, List.lookup "connections" d = some raw → Listed raw side color u →
        ∃ z : Int, side = z.repr ∧ u ∈ refsAt d z color := by
  obtain ⟨es, icons, hm, -, rfl⟩ := export_content he ho
  obtain rfl := listAt_entities hents
  obtain ⟨hlen, hget⟩ := mapL_get (fun r => Keeps.flips_entToJson w r) hm (SameUpToFlips.refl w)
  refine ⟨hlen, fun i hi => ?_⟩
  obtain ⟨x, x', u, hx, hu, hent⟩ := hget i hi
  obtain ⟨d, ob, rfl, hc, h1, -, -, h4⟩ := entToJson_ok hent
  have hl : (x.heap (w.bp b).objs[i]).layer = some b := by
    rw [hx.heap]; exact h.layer b _ (List.getElem_mem hi)
  obtain ⟨hd, -, cs, hcs, hsame, hun, hfar⟩ := connectionsToJson_refs hl hc
  refine ⟨d, cs, hu, by rw [h1, hx.heap], hcs, ?_, ?_, ?_, ?_⟩
  · intro c hc
    obtain ⟨e, he, rfl, -⟩ := hsame c hc
    obtain ⟨f, hf, hs⟩ := pairwise_forall₂.forall₂_mem (hx.conns b) e he
    exact ⟨f, hf, (SameWire.orientate e _).trans hs⟩
  · intro s k
    rw [refsAt_export h4, hun, hx.heap]
  · intro s k
    exact (hfar s k).trans (farEnds_forall₂ (hx.conns b) _ _ _)
  · intro raw side color u hraw hu
    rw [hraw] at h4
    split at h4
    · cases h4
    · cases h4
      obtain ⟨z, rfl, hz⟩ := (listed_under hd).1 hu
      exact ⟨z, rfl, by rw [refsAt_wireJson hraw]; exact hz⟩

theorem autoVal_inj {a b : Option Int} (h : autoVal a = autoVal b) : a = b := by
  cases a <;> cases b <;> simp_all [autoVal]

/-- A reference as the code writes it: the circuit is that of the near side. -/
def nearPair (w : World) (side : Int) (p : Option Ref × Int) : Option Val × Option Val :=
  (p.1.map (fun s => autoVal (w.heap s).auto),
    p.1.bind (fun s => if (w.heap s).klass.nrConnections = 2 then some (.int side) else none))

theorem entries_wireRef (w : World) (s : Ref) (z q : Int) :
    (entry "entity_id" (wireRef (w.heap s) z), entry "circuit_id" (wireRef (w.heap s) z)) =
      nearPair w z (some s, q) := by
  unfold wireRef nearPair entry
  refine Prod.ext rfl ?_
  by_cases h : (w.heap s).klass.nrConnections = 2
  · simp [h, List.lookup]
  · simp [h, List.lookup]

theorem contribs_near {w : World} {r : Ref} {cs : List Conn}
    (h : ∀ c ∈ cs, c.fromE = some r ∧ ∃ t, c.toE = some t)
    (hl : ∀ c ∈ cs, c.fromE = c.toE → c.fromSide = c.toSide) (s : Int) (k : String) :
    ((contribs w.heap r cs s k).map (fun u => (entry "entity_id" u, entry "circuit_id" u))).Perm
      ((farEnds cs r s k).map (nearPair w s)) := by
  rw [farEnds_eq]
  unfold contribs
  rw [List.map_flatMap, List.map_flatMap]
  refine flatMap_perm_of cs (fun c hc => ?_)
  obtain ⟨hf, t, ht⟩ := h c hc
  have hl := hl c hc
  rw [ht]
  dsimp only
  unfold contrib far1
  rw [List.map_append, List.map_append]
  refine List.perm_append_comm.trans (List.Perm.append ?_ ?_)
  · rw [hf, ht]
    by_cases h : s = c.fromSide ∧ k = c.color
    · rw [if_pos h, if_pos ⟨h.2.symm, rfl, h.1.symm⟩, List.map_singleton, List.map_singleton,
        entries_wireRef w t c.fromSide c.toSide, h.1]
    · rw [if_neg h, if_neg (fun x => h ⟨x.2.2.symm, x.1.symm⟩)]
      exact .refl _
  · rw [ht]
    by_cases h : t = r ∧ s = c.toSide ∧ k = c.color
    · have e := hl (by rw [hf, ht, h.1])
      rw [if_pos h, if_pos ⟨h.2.2.symm, by rw [h.1], h.2.1.symm⟩, List.map_singleton, List.map_singleton,
        entries_wireRef w r c.fromSide c.fromSide, hf, h.2.1, e]
    · rw [if_neg h, if_neg (fun x => h ⟨Option.some.inj x.2.1, x.2.2.symm, x.1.symm⟩)]
      exact .refl _

theorem Reachable.removed {env : Env} {w w1 : World} (h : Reachable env w) {b : BpId} {r : Ref}
    (hrem : layerRemove b (.ent r) w = (.ok (), w1)) : Reachable env w1 := by
  have hr : r ∈ (w.bp b).objs := by
    by_contra hn
    have : layerRemove b (.ent r) w = (.error .valueError, w) := by
      show layerDrop b r w = _
      unfold layerDrop
      rw [if_neg hn]
    rw [this] at hrem
    cases hrem
  have := Reachable.step (.remove b (.ent r)) h (h.owned.exist b r hr)
  have e : ((Op.remove b (.ent r)).run w).2 = (layerRemove b (.ent r) w).2 := by
    cases hx : layerRemove b (.ent r) w with
    | mk a v => cases a <;> simp only [Op.run, hx]
  rw [e, hrem] at this
  exact this

/-! ## No wire twice -/

theorem forall₂_modify_flip (cs : List Conn) (i : Nat) : List.Forall₂ SameWire (cs.modify i Conn.flip) cs := by
  induction cs generalizing i with
  | nil => simp
  | cons c cs ih =>
    cases i with
    | zero =>
      rw [List.modify_zero_cons]
      exact .cons (.inr rfl) (forall₂_refl' SameWire.refl _)
    | succ i =>
      rw [List.modify_succ_cons]
      exact .cons (.refl c) (ih i)

theorem noDup_of_steps {k : Kind} (hk : k.recolors = false) {w w' : World} (h : Steps k w w')
    (hw : ∀ b, (w.bp b).conns.Pairwise (fun a b => ¬ SameWire a b)) (b : BpId) :
    (w'.bp b).conns.Pairwise (fun a b => ¬ SameWire a b) := by
  refine Steps.induct (I := fun w => ∀ b, (w.bp b).conns.Pairwise (fun a b => ¬ SameWire a b)) ?_ h hw b
  intro w w' hw hp c
  have key : ∀ (b : BpId) (p : Bp), p.conns.Pairwise (fun a b => ¬ SameWire a b) →
      ((w.setBp b p).bp c).conns.Pairwise (fun a b => ¬ SameWire a b) := by
    intro b p hp
    rw [setBp_bp]
    split
    · exact hp
    · exact hw c
  cases hp with
  | ent r e he => exact hw c
  | env e => exact hw c
  | bp b p h1 h2 h3 _ => exact key b p (h2 ▸ hw b)
  | sort b =>
    by_cases e : c = b
    · subst e; rw [sort_bp_self]; exact hw c
    · rw [sort_bp_other e]; exact hw c
  | noConns b => exact key b _ .nil
  | addConn b r c' _ => exact key b _ (addConn_distinct (hw b))
  | orient b r => exact key b _ (pairwise_forall₂ (forall₂_map' (SameWire.orientFor r) _) (hw b))
  | flip b i => exact key b _ (pairwise_forall₂ (forall₂_modify_flip _ i) (hw b))
  | flipColor b i h => rw [hk] at h; cases h
  | alloc l e _ => exact hw c
  | load b e he => exact key b _ (hw b)
  | add b r hr hl hn => exact key b _ (hw b)
  | drop b r hr => exact key b _ (hw b)

end Verif
