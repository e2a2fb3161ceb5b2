import Verif.Proofs.Load
import Verif.Spec.Wires
/-!
# Helper lemmas: `get_connections` in the loop of `parse_connections`
-/
set_option autoImplicit false

namespace Verif
open Spec

/-- `orientate(r)` on every wire attached to `r`. -/
def orientFor (r : Ref) (c : Conn) : Conn := if c.attachedTo r then c.orientate r else c

theorem SameWire.orientFor (r : Ref) (c : Conn) : SameWire (orientFor r c) c := by
  unfold Verif.orientFor
  split
  · exact SameWire.orientate c r
  · exact .inl rfl

/-- The wire has both ends. -/
def Conn.joined (c : Conn) : Prop := c.fromE ≠ none ∧ c.toE ≠ none

theorem SameWire.joined {c d : Conn} (h : SameWire c d) : c.joined ↔ d.joined := by
  rcases h with rfl | rfl
  · rfl
  · exact and_comm

theorem mapM_except_ok {ε α β} {f : α → Except ε β} {l : List α} (h : ∀ a ∈ l, ∃ b, f a = .ok b) :
    ∃ bs, l.mapM f = .ok bs := by
  induction l with
  | nil => exact ⟨[], rfl⟩
  | cons a l ih =>
    obtain ⟨b, hb⟩ := h a (List.mem_cons_self ..)
    obtain ⟨bs, hbs⟩ := ih (fun x hx => h x (List.mem_cons_of_mem _ hx))
    refine ⟨b :: bs, ?_⟩
    rw [List.mapM_cons, hb, hbs]
    rfl

theorem mem_mapM_except {ε α β} {f : α → Except ε β} {l : List α} {bs : List β}
    (h : l.mapM f = .ok bs) : ∀ b, b ∈ bs ↔ ∃ a ∈ l, f a = .ok b := by
  induction l generalizing bs with
  | nil => cases h; simp
  | cons a l ih =>
    rw [List.mapM_cons] at h
    simp only [bind_eq_ok, pure_eq_ok, Except.ok.injEq] at h
    obtain ⟨c, hc, cs, hcs, rfl⟩ := h
    intro b
    rw [List.mem_cons, ih hcs]
    constructor
    · rintro (rfl | ⟨x, hx, hf⟩)
      · exact ⟨a, List.mem_cons_self .., hc⟩
      · exact ⟨x, List.mem_cons_of_mem _ hx, hf⟩
    · rintro ⟨x, hx, hf⟩
      rcases List.mem_cons.1 hx with rfl | hx
      · rw [hc] at hf; exact .inl (Except.ok.inj hf).symm
      · exact .inr ⟨x, hx, hf⟩

theorem mapM_total {ε α β} {f : α → Except ε β} {l : List α} {bs : List β}
    (h : l.mapM f = .ok bs) : ∀ a ∈ l, ∃ b, f a = .ok b := by
  induction l generalizing bs with
  | nil => simp
  | cons a l ih =>
    rw [List.mapM_cons] at h
    simp only [bind_eq_ok, pure_eq_ok, Except.ok.injEq] at h
    obtain ⟨c, hc, cs, hcs, rfl⟩ := h
    intro x hx
    rcases List.mem_cons.1 hx with rfl | hx
    · exact ⟨c, hc⟩
    · exact ih hcs x hx

/-- Every end of every wire has a number. -/
def Numbered (w : World) (b : BpId) : Prop :=
  ∀ c ∈ (w.bp b).conns, ∀ r, c.attachedTo r = true → (w.heap r).auto.isSome = true

theorem orientate_to {c : Conn} {r : Ref} (h : c.attachedTo r = true) : (c.orientate r).fromE = some r := by
  rw [attachedTo_iff] at h
  unfold Conn.orientate
  split
  · rename_i e
    simp only [beq_iff_eq] at e
    exact e
  · rename_i e
    simp only [beq_iff_eq] at e
    rcases h with h | h
    · exact h
    · exact absurd h e

/-- When `get_connections` succeeds, and its effect. -/
theorem getConnections_iff {b : BpId} {r : Ref} {w w' : World} (h : (w.heap r).layer = some b)
    (hn : Numbered w b) :
    (∃ cs, getConnections r w = (.ok cs, w')) ↔
      (∀ c ∈ (w.bp b).conns, c.attachedTo r = true → c.joined) ∧
      w' = w.setBp b { w.bp b with conns := (w.bp b).conns.map (orientFor r) } := by
  unfold getConnections
  rw [h]
  dsimp only
  have key : ∀ c, c ∈ ((w.bp b).conns.filter (·.attachedTo r)).map (·.orientate r) →
      ∃ d ∈ (w.bp b).conns, d.attachedTo r = true ∧ c = d.orientate r := by
    intro c hc
    obtain ⟨d, hd, rfl⟩ := List.mem_map.1 hc
    exact ⟨d, (List.mem_filter.1 hd).1, (List.mem_filter.1 hd).2, rfl⟩
  constructor
  · rintro ⟨cs, hcs⟩
    split at hcs
    · cases hcs
    · rename_i keyed hk
      split at hcs
      · cases hcs
      · simp only [Prod.mk.injEq] at hcs
        refine ⟨?_, hcs.2.symm⟩
        intro c hc hr
        have := mapM_total hk (c.orientate r) (List.mem_map.2 ⟨c, List.mem_filter.2 ⟨hc, hr⟩, rfl⟩)
        obtain ⟨x, hx⟩ := this
        simp only [bind_eq_ok, pure_eq_ok, Except.ok.injEq] at hx
        obtain ⟨o, ho, -⟩ := hx
        have h1 := orientate_to hr
        have h2 : (c.orientate r).toE ≠ none := by
          intro e
          unfold otherAuto at ho
          rw [e] at ho
          cases ho
        exact ((SameWire.orientate c r).joined).1 ⟨by rw [h1]; simp, h2⟩
  · rintro ⟨hj, rfl⟩
    have hj' : ∀ c, c ∈ ((w.bp b).conns.filter (·.attachedTo r)).map (·.orientate r) →
        ∃ s z, c.toE = some s ∧ (w.heap s).auto = some z := by
      intro c hc
      obtain ⟨d, hd, hr, rfl⟩ := key c hc
      have hd2 := ((SameWire.orientate d r).joined).2 (hj d hd hr)
      obtain ⟨s, hs⟩ := Option.ne_none_iff_exists'.1 hd2.2
      have ha : d.attachedTo s = true := by
        rw [← (SameWire.orientate d r).attachedTo, attachedTo_iff]
        exact .inr hs
      obtain ⟨z, hz⟩ := Option.isSome_iff_exists.1 (hn d hd s ha)
      exact ⟨s, z, hs, hz⟩
    obtain ⟨keyed, hk⟩ := mapM_except_ok (l := ((w.bp b).conns.filter (·.attachedTo r)).map (·.orientate r))
      (f := fun c => do return ((← otherAuto w.heap c), c)) (by
        intro c hc
        obtain ⟨s, z, hs, hz⟩ := hj' c hc
        refine ⟨(some z, c), ?_⟩
        simp [otherAuto, hs, hz])
    have hm : mixedKeys (keyed.map (·.1)) = false := by
      unfold mixedKeys
      rw [Bool.and_eq_false_iff]
      left
      rw [List.any_eq_false]
      intro k hk'
      obtain ⟨p, hp, rfl⟩ := List.mem_map.1 hk'
      obtain ⟨c, hc, hf⟩ := (mem_mapM_except hk p).1 hp
      obtain ⟨s, z, hs, hz⟩ := hj' c hc
      simp only [otherAuto, hs, hz, ok_bind, pure_eq_ok, Except.ok.injEq] at hf
      rw [← hf]
      simp
    refine ⟨(sortBy (fun x y => autoLe x.1 y.1) keyed).map (·.2), ?_⟩
    split
    · rename_i e he
      rw [setBp_heap] at he
      rw [hk] at he
      cases he
    · rename_i keyed' he
      rw [setBp_heap] at he
      rw [hk] at he
      cases he
      rw [if_neg (by rw [hm]; simp)]
      rfl

theorem orientAll_iff {b : BpId} {l : List Ref} {w w' : World} (h : ∀ r ∈ l, (w.heap r).layer = some b)
    (hn : Numbered w b) :
    orientAll l w = (.ok (), w') ↔
      (∀ c ∈ (w.bp b).conns, ∀ r ∈ l, c.attachedTo r = true → c.joined) ∧
      w' = w.setBp b { w.bp b with
        conns := (w.bp b).conns.map (fun c => l.foldl (fun c r => orientFor r c) c) } := by
  induction l generalizing w with
  | nil =>
    constructor
    · intro h
      cases h
      refine ⟨by simp, ?_⟩
      simp only [List.foldl_nil, List.map_id']
      exact (setBp_self _ _).symm
    · rintro ⟨-, rfl⟩
      simp only [List.foldl_nil, List.map_id']
      exact Prod.ext rfl (setBp_self _ _).symm
  | cons r l ih =>
    show ((getConnections r >>= fun _ => pure ()) >>= fun _ => orientAll l) w = _ ↔ _
    rw [M.bind_unit_ok]
    have hg := fun v => getConnections_iff (w' := v) (h r (List.mem_cons_self ..)) hn
    have h1 : ∀ v, (getConnections r >>= fun _ => pure ()) w = (.ok (), v) ↔
        ∃ cs, getConnections r w = (.ok cs, v) := by
      intro v
      rw [M.bind_eq_ok]
      constructor
      · rintro ⟨a, u, hu, he⟩; cases he; exact ⟨a, hu⟩
      · rintro ⟨a, hu⟩; exact ⟨a, v, hu, rfl⟩
    have ihv := fun (v : World) (hv : v = w.setBp b { w.bp b with conns := (w.bp b).conns.map (orientFor r) }) =>
      ih (w := v) (by subst hv; exact fun s hs => h s (List.mem_cons_of_mem _ hs)) (by
        subst hv
        intro c hc s hs
        rw [setBp_bp_self] at hc
        obtain ⟨d, hd, rfl⟩ := List.mem_map.1 hc
        rw [(SameWire.orientFor r d).attachedTo] at hs
        exact hn d hd s hs)
    constructor
    · rintro ⟨v, hv, hw⟩
      obtain ⟨hj, rfl⟩ := (hg v).1 ((h1 v).1 hv)
      obtain ⟨hj2, rfl⟩ := (ihv _ rfl).1 hw
      refine ⟨?_, ?_⟩
      · intro c hc s hs ha
        rcases List.mem_cons.1 hs with rfl | hs
        · exact hj c hc ha
        · rw [setBp_bp_self] at hj2
          have := hj2 (orientFor r c) (List.mem_map.2 ⟨c, hc, rfl⟩) s hs
            (by rw [(SameWire.orientFor r c).attachedTo]; exact ha)
          exact ((SameWire.orientFor r c).joined).1 this
      · rw [setBp_setBp, setBp_bp_self]
        simp only [List.map_map, List.foldl_cons]
        rfl
    · rintro ⟨hj, rfl⟩
      refine ⟨_, (h1 _).2 ((hg _).2 ⟨fun c hc => hj c hc r (List.mem_cons_self ..), rfl⟩), ?_⟩
      refine (ihv _ rfl).2 ⟨?_, ?_⟩
      · rw [setBp_bp_self]
        intro c hc s hs ha
        obtain ⟨d, hd, rfl⟩ := List.mem_map.1 hc
        rw [(SameWire.orientFor r d).attachedTo] at ha
        exact ((SameWire.orientFor r d).joined).2 (hj d hd s (List.mem_cons_of_mem _ hs) ha)
      · rw [setBp_setBp, setBp_bp_self]
        simp only [List.map_map, List.foldl_cons]
        rfl

/-! ## Recording wires without repetition -/

theorem eqv_iff (c d : Conn) : c.eqv d = true ↔ SameWire c d := by
  obtain ⟨f, t, a, b, k⟩ := c
  obtain ⟨f', t', a', b', k'⟩ := d
  simp only [Conn.eqv, SameWire, Conn.flip, Conn.mk.injEq, bne_iff_ne, ne_eq, ite_not,
    Bool.and_eq_true, beq_iff_eq]
  by_cases hk : k = k'
  · subst hk
    simp only [if_true, and_true]
    split
    · rename_i h; simp [h]
    · split
      · rename_i h; simp [h]
      · rename_i h1 h2
        simp only [Bool.false_eq_true, false_iff, not_or]
        refine ⟨?_, ?_⟩
        · rintro ⟨rfl, rfl, rfl, rfl⟩; simp at h1
        · rintro ⟨rfl, rfl, rfl, rfl⟩; simp at h2
  · simp [hk]

theorem SameWire.symm {c d : Conn} (h : SameWire c d) : SameWire d c := by
  rcases h with rfl | rfl
  · exact .inl rfl
  · exact .inr rfl

theorem SameWire.refl (c : Conn) : SameWire c c := .inl rfl

theorem mem_addConn {cs : List Conn} {c d : Conn} : d ∈ addConn cs c → d ∈ cs ∨ d = c := by
  unfold addConn
  split
  · exact .inl
  · intro h; simpa using h

theorem addConn_sub (cs : List Conn) (c : Conn) : ∀ d ∈ cs, d ∈ addConn cs c := by
  unfold addConn
  intro d hd
  split
  · exact hd
  · exact List.mem_append_left _ hd

theorem addConn_has (cs : List Conn) (c : Conn) : ∃ d ∈ addConn cs c, SameWire d c := by
  unfold addConn
  split
  · rename_i h
    obtain ⟨d, hd, he⟩ := List.any_eq_true.1 h
    exact ⟨d, hd, (eqv_iff d c).1 he⟩
  · exact ⟨c, by simp, .refl c⟩

theorem addConn_distinct {cs : List Conn} {c : Conn}
    (h : cs.Pairwise (fun a b => ¬ SameWire a b)) : (addConn cs c).Pairwise (fun a b => ¬ SameWire a b) := by
  unfold addConn
  split
  · exact h
  · rename_i hn
    rw [List.pairwise_append]
    refine ⟨h, by simp, ?_⟩
    intro a ha b hb hs
    simp only [List.mem_singleton] at hb
    subst hb
    exact hn (List.any_eq_true.2 ⟨a, ha, (eqv_iff a b).2 hs⟩)

theorem foldl_addConn_sub (l cs : List Conn) : ∀ d ∈ cs, d ∈ l.foldl addConn cs := by
  induction l generalizing cs with
  | nil => simp
  | cons c l ih => intro d hd; exact ih _ d (addConn_sub cs c d hd)

theorem mem_foldl_addConn {l cs : List Conn} {d : Conn} : d ∈ l.foldl addConn cs → d ∈ cs ∨ d ∈ l := by
  induction l generalizing cs with
  | nil => exact .inl
  | cons c l ih =>
    intro h
    rcases ih h with h | h
    · rcases mem_addConn h with h | rfl
      · exact .inl h
      · exact .inr (List.mem_cons_self ..)
    · exact .inr (List.mem_cons_of_mem _ h)

theorem foldl_addConn_has (l cs : List Conn) : ∀ c ∈ l, ∃ d ∈ l.foldl addConn cs, SameWire d c := by
  induction l generalizing cs with
  | nil => simp
  | cons a l ih =>
    intro c hc
    rcases List.mem_cons.1 hc with rfl | hc
    · obtain ⟨d, hd, hs⟩ := addConn_has cs c
      exact ⟨d, foldl_addConn_sub l _ d hd, hs⟩
    · exact ih _ c hc

theorem foldl_addConn_distinct {l cs : List Conn} (h : cs.Pairwise (fun a b => ¬ SameWire a b)) :
    (l.foldl addConn cs).Pairwise (fun a b => ¬ SameWire a b) := by
  induction l generalizing cs with
  | nil => exact h
  | cons c l ih => exact ih (addConn_distinct h)

/-! ## References in connection data -/

theorem getById_mem {w : World} {b : BpId} {v : Val} {r : Ref} (h : getById w b v = some r) :
    r ∈ (w.bp b).objs := List.mem_of_find?_eq_some h

theorem refConn_ends {w : World} {b : BpId} {r : Ref} {side color : String} {v : Val} {c : Conn}
    (h : refConn w b r side color v = .ok c) :
    c.fromE = some r ∧ ∀ s, c.toE = some s → s ∈ (w.bp b).objs := by
  unfold refConn at h
  simp only [bind_eq_ok] at h
  obtain ⟨id, -, d, -, h⟩ := h
  unfold Conn.new at h
  simp only [bind_eq_ok, pure_eq_ok, Except.ok.injEq] at h
  obtain ⟨x, -, y, -, rfl⟩ := h
  exact ⟨rfl, fun s hs => getById_mem hs⟩

theorem asDict_ok {v : Val} {d : Dict} : v.asDict = .ok d ↔ v = .dict d := by
  cases v <;> simp [Val.asDict]

theorem iter_dict_mem {v : Val} {vs : List Val} {d : Dict} (h : v.iter = .ok vs) (hd : Val.dict d ∈ vs) :
    v = .list vs := by
  unfold Val.iter at h
  split at h
  · cases h; rfl
  · cases h; simp at hd
  · cases h; simp at hd
  · cases h

theorem refConn_dict {w : World} {b : BpId} {r : Ref} {side color : String} {v : Val} {c : Conn}
    (h : refConn w b r side color v = .ok c) : ∃ d, v = .dict d := by
  unfold refConn at h
  simp only [bind_eq_ok] at h
  obtain ⟨id, -, d, hd, -⟩ := h
  exact ⟨d, asDict_ok.1 hd⟩

theorem mem_rawRefs {w : World} {b : BpId} {r : Ref} {raw : Val} {cs : List Conn}
    (h : rawRefs w b r raw = .ok cs) :
    (∀ c ∈ cs, ∃ side color v, Listed raw side color v ∧ refConn w b r side color v = .ok c) ∧
    ∀ side color v, Listed raw side color v → ∃ c ∈ cs, refConn w b r side color v = .ok c := by
  unfold rawRefs at h
  split at h
  · cases h
    simp [Listed]
  · rename_i hr
    simp only [bind_eq_ok, pure_eq_ok, Except.ok.injEq] at h
    obtain ⟨sides, hs, l, hl, rfl⟩ := h
    rw [asDict_ok] at hs
    subst hs
    refine ⟨?_, ?_⟩
    · intro c hc
      obtain ⟨x, hx, hcx⟩ := List.mem_flatten.1 hc
      obtain ⟨⟨side, colv⟩, hp, hf⟩ := (mem_mapM_except hl x).1 hx
      simp only [bind_eq_ok, Except.ok.injEq] at hf
      obtain ⟨colors, hc1, ll, hll, rfl⟩ := hf
      rw [asDict_ok] at hc1
      subst hc1
      obtain ⟨y, hy, hcy⟩ := List.mem_flatten.1 hcx
      obtain ⟨⟨color, vv⟩, hq, hg⟩ := (mem_mapM_except hll y).1 hy
      rw [bind_eq_ok] at hg
      obtain ⟨vs, hvs, hg⟩ := hg
      obtain ⟨v, hv, hcv⟩ := (mem_mapM_except hg c).1 hcy
      obtain ⟨d, rfl⟩ := refConn_dict hcv
      have := iter_dict_mem hvs hv
      dsimp only at this
      subst this
      exact ⟨side, color, _, ⟨sides, colors, vs, rfl, hp, hq, hv⟩, hcv⟩
    · rintro side color v ⟨sides', colors, vs, he, hp, hq, hv⟩
      cases he
      obtain ⟨x, hx⟩ := mapM_total hl _ hp
      simp only [bind_eq_ok, Except.ok.injEq] at hx
      obtain ⟨colors', hc1, ll, hll, rfl⟩ := hx
      cases hc1
      obtain ⟨y, hy⟩ := mapM_total hll _ hq
      rw [bind_eq_ok] at hy
      obtain ⟨vs', hvs, hy⟩ := hy
      cases hvs
      obtain ⟨c, hc⟩ := mapM_total hy v hv
      refine ⟨c, List.mem_flatten.2 ⟨ll.flatten, (mem_mapM_except hl _).2 ⟨_, hp, ?_⟩,
        List.mem_flatten.2 ⟨y, (mem_mapM_except hll _).2 ⟨_, hq, ?_⟩, (mem_mapM_except hy c).2 ⟨v, hv, hc⟩⟩⟩, hc⟩
      · dsimp only
        simp only [Val.asDict, ok_bind]
        rw [hll]
        rfl
      · dsimp only
        simp only [Val.iter, ok_bind]
        exact hy

end Verif
