import Verif.Proofs.WireExport
/-!
# Helper lemmas: exporting twice
-/
set_option autoImplicit false

namespace Verif
open Spec

/-- Wires from an entity to itself have the same connector at both ends. -/
def LoopsSym (cs : List Conn) : Prop := ∀ c ∈ cs, c.fromE = c.toE → c.fromSide = c.toSide

theorem orientate_sameWire {c d : Conn} (h : SameWire c d) (hl : d.fromE = d.toE → d.fromSide = d.toSide)
    {r : Ref} (ha : d.attachedTo r = true) : c.orientate r = d.orientate r := by
  rcases h with rfl | rfl
  · rfl
  · rw [attachedTo_iff] at ha
    obtain ⟨f, t, a, b, k⟩ := d
    simp only [Conn.orientate, Conn.flip, beq_iff_eq] at *
    by_cases h1 : t = some r
    · by_cases h2 : f = some r
      · have := hl (by rw [h1, h2])
        subst this; subst h1; subst h2; simp
      · simp [h1, h2]
    · have h2 : f = some r := by tauto
      simp [h1, h2]

theorem mine_eq {cs ds : List Conn} (h : List.Forall₂ SameWire cs ds) (hl : LoopsSym ds) (r : Ref) :
    (cs.filter (·.attachedTo r)).map (·.orientate r) = (ds.filter (·.attachedTo r)).map (·.orientate r) := by
  induction h with
  | nil => rfl
  | @cons c d cs ds h _ ih =>
    have ih := ih (fun c hc => hl c (List.mem_cons_of_mem _ hc))
    rw [List.filter_cons, List.filter_cons, h.attachedTo]
    split
    · rename_i ha
      rw [List.map_cons, List.map_cons, ih, orientate_sameWire h (hl d (List.mem_cons_self ..)) ha]
    · exact ih

theorem loopsSym_of {cs ds : List Conn} (h : List.Forall₂ SameWire cs ds) (hl : LoopsSym ds) : LoopsSym cs := by
  induction h with
  | nil => exact hl
  | @cons c d cs ds h _ ih =>
    have ih := ih (fun c hc => hl c (List.mem_cons_of_mem _ hc))
    intro x hx
    rcases List.mem_cons.1 hx with rfl | hx
    · have hd := hl d (List.mem_cons_self ..)
      rcases h with rfl | rfl
      · exact hd
      · exact fun e => (hd e.symm).symm
    · exact ih x hx

/-- The effect of `orientate` in the blueprint of `r`. -/
def orientIn (w : World) (b : BpId) (r : Ref) : World :=
  w.setBp b { w.bp b with conns := (w.bp b).conns.map (orientFor r) }

theorem getConnections_snd {w : World} {r : Ref} {b : BpId} (h : (w.heap r).layer = some b) :
    (getConnections r w).2 = orientIn w b r := by
  unfold getConnections
  rw [h]
  dsimp only
  split
  · rfl
  · split <;> rfl

theorem getConnections_fst {w : World} {r : Ref} {b : BpId} (h : (w.heap r).layer = some b) :
    (getConnections r w).1 = (do
      let keyed ← (((w.bp b).conns.filter (·.attachedTo r)).map (·.orientate r)).mapM
        (fun c => do return ((← otherAuto w.heap c), c))
      if mixedKeys (keyed.map (·.1)) then .error .typeError
      else .ok ((sortBy (fun x y => autoLe x.1 y.1) keyed).map (·.2))) := by
  unfold getConnections
  rw [h]
  dsimp only
  rw [setBp_heap]
  split
  · rename_i e he; rw [he]; rfl
  · rename_i keyed he
    rw [he]
    dsimp only [ok_bind]
    split <;> rfl

/-- Two worlds between which exporting blueprint `b` cannot distinguish. -/
structure Alike (b : BpId) (l : List Ref) (w w' : World) : Prop where
  same : SameUpToFlips w w'
  loops : LoopsSym (w.bp b).conns
  layer : ∀ r ∈ l, (w.heap r).layer = some b

theorem Alike.orient {b : BpId} {l : List Ref} {w w' : World} (h : Alike b l w w') (r : Ref) :
    Alike b l (orientIn w b r) (orientIn w' b r) := by
  refine ⟨⟨h.same.env, h.same.heap, h.same.next, fun c => ?_, fun c => ?_⟩, ?_, h.layer⟩
  · unfold orientIn
    simp only [setBp_bp]
    split
    · rename_i e; subst e
      dsimp only
      rw [h.same.bp c]
    · exact h.same.bp c
  · unfold orientIn
    simp only [setBp_bp]
    split
    · rename_i e; subst e
      dsimp only
      have := h.same.conns c
      generalize (w'.bp c).conns = cs at this
      generalize (w.bp c).conns = ds at this
      induction this with
      | nil => exact .nil
      | cons h _ ih =>
        exact .cons (((SameWire.orientFor r _).trans h).trans (SameWire.orientFor r _).symm) ih
    · exact h.same.conns c
  · unfold orientIn
    rw [setBp_bp_self]
    exact loopsSym_of (forall₂_map' (SameWire.orientFor r) _) h.loops

theorem Alike.connectionsToJson {b : BpId} {l : List Ref} {w w' : World} (h : Alike b l w w') {r : Ref}
    (hr : r ∈ l) : (connectionsToJson r w').1 = (connectionsToJson r w).1 ∧
      Alike b l (Verif.connectionsToJson r w).2 (Verif.connectionsToJson r w').2 := by
  have h1 := h.layer r hr
  have h2 : (w'.heap r).layer = some b := by rw [h.same.heap]; exact h1
  have e1 := getConnections_fst h1
  have e2 := getConnections_fst h2
  rw [mine_eq (h.same.conns b) h.loops, h.same.heap, ← e1] at e2
  have key : ∀ (w : World), (w.heap r).layer = some b → Verif.connectionsToJson r w =
      (do let cs ← (getConnections r w).1
          cs.foldlM (wireStep w.heap r) [], orientIn w b r) := by
    intro w hw
    unfold Verif.connectionsToJson
    rw [M.bind_eq]
    have := getConnections_snd hw
    cases hg : getConnections r w with
    | mk res v =>
      rw [hg] at this
      dsimp only at this
      subst this
      cases res with
      | error e => rfl
      | ok cs => rfl
  rw [key w h1, key w' h2, e2, h.same.heap]
  exact ⟨rfl, h.orient r⟩

theorem Alike.entToJson {b : BpId} {l : List Ref} {w w' : World} (h : Alike b l w w') {r : Ref}
    (hr : r ∈ l) : (entToJson r w').1 = (entToJson r w).1 ∧
      Alike b l (Verif.entToJson r w).2 (Verif.entToJson r w').2 := by
  obtain ⟨h1, h2⟩ := h.connectionsToJson hr
  have key : ∀ w : World, Verif.entToJson r w =
      (do let c ← (Verif.connectionsToJson r w).1
          let obj : Dict := [("entity_number", autoVal (w.heap r).auto), ("name", .str (w.heap r).name),
            ("position", (w.heap r).pos.toJson)]
          return .dict (← (w.heap r).emitRest w.env
            (if c.isEmpty then obj else obj ++ [("connections", wireJson c)])),
        (Verif.connectionsToJson r w).2) := by
    intro w
    unfold Verif.entToJson
    rw [M.bind_get, M.bind_eq]
    cases hg : Verif.connectionsToJson r w with
    | mk res v =>
      cases res with
      | error e => rfl
      | ok c =>
        dsimp only [ok_bind]
        rw [M.bind_eq, M.lift_eq]
        cases (w.heap r).emitRest w.env _ <;> rfl
  rw [key w, key w', h1, h.same.heap, h.same.env]
  exact ⟨rfl, h2⟩

theorem Alike.mapL {b : BpId} {l l' : List Ref} {w w' : World} (h : Alike b l w w') (hl : ∀ r ∈ l', r ∈ l) :
    (M.mapL Verif.entToJson l' w').1 = (M.mapL Verif.entToJson l' w).1 := by
  induction l' generalizing w w' with
  | nil => rfl
  | cons r l' ih =>
    obtain ⟨h1, h2⟩ := h.entToJson (hl r (List.mem_cons_self ..))
    have ih := ih h2 (fun s hs => hl s (List.mem_cons_of_mem _ hs))
    change ((Verif.entToJson r >>= fun b => M.mapL Verif.entToJson l' >>= fun bs =>
      (pure (b :: bs) : M (List Val))) w').1 = ((Verif.entToJson r >>= fun b =>
      M.mapL Verif.entToJson l' >>= fun bs => (pure (b :: bs) : M (List Val))) w).1
    rw [M.bind_eq, M.bind_eq]
    cases hx : Verif.entToJson r w with
    | mk res v =>
      cases hy : Verif.entToJson r w' with
      | mk res' v' =>
        rw [hx, hy] at h1 ih
        dsimp only at h1 ih
        subst h1
        cases res' with
        | error e => rfl
        | ok a =>
          dsimp only
          rw [M.bind_eq, M.bind_eq]
          cases hx' : M.mapL Verif.entToJson l' v with
          | mk r1 u =>
            cases hy' : M.mapL Verif.entToJson l' v' with
            | mk r2 u' =>
              rw [hx', hy'] at ih
              dsimp only at ih
              subst ih
              cases r2 <;> rfl

theorem Alike.toJson {b : BpId} {w w' : World} (h : Alike b (w.bp b).objs w w') :
    (toJson b w').1 = (toJson b w).1 := by
  have hm := h.mapL (l' := (w.bp b).objs) (fun r hr => hr)
  unfold Verif.toJson
  rw [M.bind_get, M.bind_get]
  have hbp := h.same.bp b
  have e1 : (w'.bp b).objs = (w.bp b).objs := by rw [hbp]
  have e2 : (w'.bp b).icons = (w.bp b).icons := by rw [hbp]
  have e3 : (w'.bp b).schedules = (w.bp b).schedules := by rw [hbp]
  have e4 : (w'.bp b).item = (w.bp b).item := by rw [hbp]
  have e5 : (w'.bp b).label = (w.bp b).label := by rw [hbp]
  have e6 : (w'.bp b).labelColor = (w.bp b).labelColor := by rw [hbp]
  have e7 : (w'.bp b).version = (w.bp b).version := by rw [hbp]
  have e8 : (w'.bp b).tiles = (w.bp b).tiles := by rw [hbp]
  dsimp only
  rw [e1, e2, e3, e4, e5, e6, e7, e8, h.same.heap, h.same.env, M.bind_eq, M.bind_eq]
  cases hx : M.mapL Verif.entToJson (w.bp b).objs w with
  | mk r1 u =>
    cases hy : M.mapL Verif.entToJson (w.bp b).objs w' with
    | mk r2 u' =>
      rw [hx, hy] at hm
      dsimp only at hm
      subst hm
      cases r2 with
      | error e => rfl
      | ok a =>
        dsimp only
        rw [M.bind_eq, M.bind_eq, M.lift_eq, M.lift_eq]
        cases iconsJson w.env 0 (w.bp b).icons <;> rfl

end Verif
