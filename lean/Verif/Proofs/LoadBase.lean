import Verif.Proofs.Wires
/-!
# Helper lemmas: the state in the middle of `load`, and `load` in one step
-/
set_option autoImplicit false

namespace Verif
open Spec

/-- The world of `load` before the wires are read. -/
def World.base (w : World) (b : BpId) (d : Dict) (col : Option Color) (ic : List (Option Val))
    (es : List Entity) : World :=
  ((w.setBp b ((w.bp b).withHead d col ic)).pushAll b es).sort b

theorem buildAll_layer {env : Env} {custom : Option Custom} {b : BpId} {l : List Val} {es : List Entity}
    (h : buildAll env custom b l = .ok es) : ∀ e ∈ es, e.layer = some b := by
  intro e he
  obtain ⟨v, -, hv⟩ := (mem_mapM_except h e).1 he
  rw [bind_eq_ok] at hv
  obtain ⟨kw, -, hv⟩ := hv
  exact Entity.new_layer hv

theorem reindexFrom_other (heap : Ref → Entity) (i : Nat) (l : List Ref) {s : Ref} (h : s ∉ l) :
    reindexFrom heap i l s = heap s := by
  induction l generalizing heap i with
  | nil => rfl
  | cons r rs ih =>
    rw [reindexFrom, ih _ _ (fun hm => h (List.mem_cons_of_mem _ hm)), if_neg]
    rintro rfl
    exact h (List.mem_cons_self ..)

section
variable (w : World) (b : BpId) (d : Dict) (col : Option Color) (ic : List (Option Val))
  (es : List Entity)

theorem sort_heap_other {w : World} {b : BpId} {s : Ref} (h : s ∉ (w.bp b).objs) :
    (w.sort b).heap s = w.heap s := by
  show reindexFrom w.heap 0 _ s = _
  rw [reindexFrom_other]
  simpa using h

theorem reindexFrom_same (heap : Ref → Entity) (i : Nat) (l : List Ref) (s : Ref) :
    ∃ n, reindexFrom heap i l s = { heap s with auto := n } := by
  induction l generalizing heap i with
  | nil => exact ⟨(heap s).auto, rfl⟩
  | cons r rs ih =>
    rw [reindexFrom]
    obtain ⟨n, hn⟩ := ih (fun s => if s = r then { heap r with auto := some ((i : Int) + 1) } else heap s) (i + 1)
    refine ⟨n, ?_⟩
    rw [hn]
    split
    · rename_i e; rw [e]
    · rfl

theorem sort_same (s : Ref) : SameButNumber ((w.sort b).heap s) (w.heap s) := by
  obtain ⟨n, hn⟩ := reindexFrom_same w.heap 0
    (sortBy (fun r s => posLe (w.heap r).pos (w.heap s).pos) (w.bp b).objs) s
  show SameButNumber (reindexFrom w.heap 0 _ s) (w.heap s)
  rw [hn]
  rfl

theorem SameButNumber.eqs {e e' : Entity} (h : SameButNumber e e') :
    e.layer = e'.layer ∧ e.number = e'.number ∧ e.raw = e'.raw ∧ e.pos = e'.pos ∧ e.dir = e'.dir ∧
    e.klass = e'.klass ∧ e.name = e'.name ∧ e.attrs = e'.attrs ∧ e.cb = e'.cb := by
  unfold SameButNumber at h
  simp only [Entity.mk.injEq] at h
  obtain ⟨h1, h2, h3, h4, h5, h6, h7, h8, h9, h10, h11, h12⟩ := h
  exact ⟨h2, h3, h8, h6, h7, h9, h5, h11, h12⟩

@[simp] theorem base_env : (w.base b d col ic es).env = w.env := by
  unfold World.base
  show (World.pushAll _ _ _).env = _
  rw [pushAll_env]
  rfl

theorem base_bp_other {c : BpId} (h : c ≠ b) : (w.base b d col ic es).bp c = w.bp c := by
  unfold World.base
  show ((World.pushAll _ _ _).setBp b _).bp c = _
  rw [setBp_bp, if_neg h, pushAll_bp_other _ _ h, setBp_bp, if_neg h]

theorem base_next : (w.base b d col ic es).next = w.next + es.length := by
  show (World.pushAll _ _ _).next = _
  rw [pushAll_next]
  rfl

/-- The attributes of the blueprint. -/
theorem base_bp : ∃ objs, (w.base b d col ic es).bp b = { (w.bp b).withHead d col ic with objs := objs } := by
  refine ⟨((w.base b d col ic es).bp b).objs, ?_⟩
  · unfold World.base World.sort
    show ((World.pushAll _ _ _).setBp b _).bp b = _
    simp only [setBp_bp_self, pushAll_bp_self]

theorem base_heap_new {i : Nat} (h : i < es.length) :
    SameButNumber ((w.base b d col ic es).heap (w.next + i)) es[i] := by
  have h1 := sort_same ((w.setBp b ((w.bp b).withHead d col ic)).pushAll b es) b (w.next + i)
  have h2 := pushAll_heap_new (w.setBp b ((w.bp b).withHead d col ic)) b es h
  rw [setBp_next] at h2
  rw [h2] at h1
  exact h1

theorem base_heap_old {s : Ref} (h : s < w.next) :
    SameButNumber ((w.base b d col ic es).heap s) (w.heap s) := by
  have h1 := sort_same ((w.setBp b ((w.bp b).withHead d col ic)).pushAll b es) b s
  have h2 := pushAll_heap_old (w.setBp b ((w.bp b).withHead d col ic)) b es (s := s) h
  rw [h2] at h1
  exact h1

theorem base_heap_foreign {s : Ref} (h : s < w.next) (hs : s ∉ (w.bp b).objs) :
    (w.base b d col ic es).heap s = w.heap s := by
  unfold World.base
  rw [sort_heap_other, pushAll_heap_old]
  · rfl
  · exact h
  · rw [pushAll_bp_self, setBp_bp_self]
    simp only [Bp.withHead, List.mem_append, not_or, List.mem_range'_1, setBp_next]
    exact ⟨hs, fun hh => absurd hh.1 (Nat.not_le.2 h)⟩

theorem base_inOrder (ho : Owned w) :
    InOrder (w.base b d col ic es) b ((w.bp b).objs ++ List.range' w.next es.length) := by
  have h : (((w.setBp b ((w.bp b).withHead d col ic)).pushAll b es).bp b).objs =
      (w.bp b).objs ++ List.range' w.next es.length := by
    rw [pushAll_bp_self, setBp_bp_self]
    rfl
  have hn : ((w.bp b).objs ++ List.range' w.next es.length).Nodup := by
    rw [List.nodup_append]
    refine ⟨ho.nodup b, List.nodup_range', ?_⟩
    intro r hr s hs e
    subst e
    have := ho.exist b r hr
    rw [List.mem_range'_1] at hs
    exact absurd hs.1 (Nat.not_le.2 this)
  have := sort_inOrder ((w.setBp b ((w.bp b).withHead d col ic)).pushAll b es) b (by rw [h]; exact hn)
  rw [h] at this
  exact this

theorem base_objs_nodup (ho : Owned w) : ((w.base b d col ic es).bp b).objs.Nodup := by
  rw [(base_inOrder w b d col ic es ho).same.nodup_iff, List.nodup_append]
  refine ⟨ho.nodup b, List.nodup_range', ?_⟩
  intro r hr s hs e
  subst e
  have := ho.exist b r hr
  rw [List.mem_range'_1] at hs
  exact absurd hs.1 (Nat.not_le.2 this)

theorem base_mem (ho : Owned w) {s : Ref} :
    s ∈ ((w.base b d col ic es).bp b).objs ↔
      s ∈ (w.bp b).objs ∨ ∃ i, i < es.length ∧ s = w.next + i := by
  rw [(base_inOrder w b d col ic es ho).same.mem_iff, List.mem_append, List.mem_range']
  simp

theorem base_layer (ho : Owned w) (hes : ∀ e ∈ es, e.layer = some b) :
    ∀ r ∈ ((w.base b d col ic es).bp b).objs, ((w.base b d col ic es).heap r).layer = some b := by
  intro r hr
  rcases (base_mem w b d col ic es ho).1 hr with hr | ⟨i, hi, rfl⟩
  · rw [(SameButNumber.eqs (base_heap_old w b d col ic es (ho.exist b r hr))).1]
    exact ho.layer b r hr
  · rw [(SameButNumber.eqs (base_heap_new w b d col ic es hi)).1]
    exact hes _ (List.getElem_mem hi)

theorem InOrder.auto {w : World} {b : BpId} {l : List Ref} (h : InOrder w b l) :
    ∀ r ∈ (w.bp b).objs, (w.heap r).auto.isSome = true := by
  intro r hr
  obtain ⟨i, hi, rfl⟩ := List.getElem_of_mem hr
  rw [h.numbered i hi]
  rfl

end

/-- The wires found in the connection data of the entities of `b`. -/
def World.rawWires (w : World) (b : BpId) : Except Exc (List Conn) := do
  let css ← (w.bp b).objs.mapM (fun r => rawRefs w b r (w.heap r).raw)
  return css.flatten

/-- The last orientation of a wire in the second loop of `parse_connections`. -/
def orientTo (l : List Ref) (c : Conn) : Conn := l.foldl (fun c r => orientFor r c) c

theorem SameWire.orientTo (l : List Ref) (c : Conn) : SameWire (orientTo l c) c := by
  unfold Verif.orientTo
  induction l generalizing c with
  | nil => exact .refl c
  | cons r l ih => exact (ih (Verif.orientFor r c)).trans (SameWire.orientFor r c)

theorem rawWires_ends {w : World} {b : BpId} {cs : List Conn} (h : w.rawWires b = .ok cs) :
    ∀ c ∈ cs, (∃ r ∈ (w.bp b).objs, c.fromE = some r) ∧ ∀ s, c.toE = some s → s ∈ (w.bp b).objs := by
  intro c hc
  unfold World.rawWires at h
  simp only [bind_eq_ok, pure_eq_ok, Except.ok.injEq] at h
  obtain ⟨css, hcss, rfl⟩ := h
  obtain ⟨x, hx, hcx⟩ := List.mem_flatten.1 hc
  obtain ⟨r, hr, hf⟩ := (mem_mapM_except hcss x).1 hx
  obtain ⟨side, color, v, -, hv⟩ := (mem_rawRefs hf).1 c hcx
  obtain ⟨h1, h2⟩ := refConn_ends hv
  exact ⟨⟨r, hr, h1⟩, h2⟩

theorem parseConnections_ok {b : BpId} {w w' : World} (hl : ∀ r ∈ (w.bp b).objs, (w.heap r).layer = some b)
    (hn : ∀ r ∈ (w.bp b).objs, (w.heap r).auto.isSome = true) :
    parseConnections b w = (.ok (), w') ↔
    ∃ cs, w.rawWires b = .ok cs ∧ (∀ c ∈ cs, c.joined) ∧
      w' = w.setBp b { w.bp b with
        conns := (cs.foldl addConn []).map (orientTo (w.bp b).objs) } := by
  rw [parseConnections_iff]
  have key : ∀ cs, w.rawWires b = .ok cs →
      (orientAll (w.bp b).objs (w.setBp b { w.bp b with conns := cs.foldl addConn [] }) = (.ok (), w') ↔
      (∀ c ∈ cs, c.joined) ∧
      w' = w.setBp b { w.bp b with
        conns := (cs.foldl addConn []).map (orientTo (w.bp b).objs) }) := by
    intro cs hcs
    have he := rawWires_ends hcs
    rw [orientAll_iff (b := b) (by exact hl)]
    · rw [setBp_setBp, setBp_bp_self]
      refine and_congr ⟨?_, ?_⟩ Iff.rfl
      · intro h c hc
        obtain ⟨dc, hd, hs⟩ := foldl_addConn_has cs [] c hc
        obtain ⟨r, hr, hf⟩ := (he c hc).1
        refine hs.joined.1 (h dc hd r hr ?_)
        rw [hs.attachedTo, attachedTo_iff]
        exact .inl hf
      · intro h c hc r hr ha
        rcases mem_foldl_addConn hc with hc | hc
        · cases hc
        · exact h c hc
    · intro c hc r ha
      rw [setBp_bp_self] at hc
      rw [setBp_heap]
      rcases mem_foldl_addConn hc with hc | hc
      · cases hc
      · rw [attachedTo_iff] at ha
        obtain ⟨⟨s, hs, hf⟩, ht⟩ := he c hc
        rcases ha with ha | ha
        · rw [hf] at ha
          cases ha
          exact hn _ hs
        · exact hn _ (ht r ha)
  constructor
  · rintro ⟨css, hcss, h⟩
    have hr : w.rawWires b = .ok css.flatten := by
      unfold World.rawWires
      rw [hcss]
      rfl
    exact ⟨_, hr, (key _ hr).1 h⟩
  · rintro ⟨cs, hcs, h⟩
    have h2 := (key cs hcs).2 h
    have hcs' := hcs
    unfold World.rawWires at hcs'
    simp only [bind_eq_ok, pure_eq_ok, Except.ok.injEq] at hcs'
    obtain ⟨css, hcss, rfl⟩ := hcs'
    exact ⟨css, hcss, h2⟩

/-- `load` in one step. -/
theorem load_ok {b : BpId} {data : Val} {w w' : World} (ho : Owned w) :
    load b data w = (.ok (), w') ↔
    ∃ d col iv ic ev es cs sv scheds,
      unwrapData data = .ok d ∧
      colorAfter (w.bp b).labelColor (Dict.getD d "label_color" .none) = .ok col ∧
      (Dict.getD d "icons" (.list [])).iter = .ok iv ∧
      iconsAll w.env iv [none, none, none, none] = .ok ic ∧
      (Dict.getD d "entities" (.list [])).iter = .ok ev ∧
      buildAll w.env (w.customOf (some b)) b ev = .ok es ∧
      (w.base b d col ic es).rawWires b = .ok cs ∧ (∀ c ∈ cs, c.joined) ∧
      (Dict.getD d "tiles" (.list [])).iter = .ok [] ∧
      (Dict.getD d "schedules" (.list [])).iter = .ok sv ∧
      sv.mapM (scheduleNew (w.base b d col ic es) b) = .ok scheds ∧
      w' = (w.base b d col ic es).setBp b { (w.base b d col ic es).bp b with
        conns := (cs.foldl addConn []).map (orientTo ((w.base b d col ic es).bp b).objs),
        tiles := sortBy (fun s t => posLe s.pos t.pos) (w.bp b).tiles,
        schedules := scheds } := by
  rw [load_iff]
  constructor
  · rintro ⟨d, col, iv, ic, ev, es, w₃, sv, scheds, h1, h2, h3, h4, h5, h6, h7, h8, h9, h10, rfl⟩
    have hl := base_layer w b d col ic es ho (buildAll_layer h6)
    have ha := InOrder.auto (base_inOrder w b d col ic es ho)
    obtain ⟨cs, hcs, hj, rfl⟩ := (parseConnections_ok hl ha).1 h7
    obtain ⟨objs, hbp⟩ := base_bp w b d col ic es
    rw [scheduleNew_setBp] at h10
    · refine ⟨d, col, iv, ic, ev, es, cs, sv, scheds, h1, h2, h3, h4, h5, h6, hcs, hj, h8, h9, h10, ?_⟩
      change (World.setBp (World.setBp (w.base b d col ic es) _ _) _ _) = _
      rw [setBp_setBp]
      change (World.setBp (w.base b d col ic es) b
        { ((w.base b d col ic es).setBp b _).bp b with
          tiles := sortBy _ (((w.base b d col ic es).setBp b _).bp b).tiles, schedules := scheds }) = _
      rw [setBp_bp_self, hbp]
      rfl
    · rfl
  · rintro ⟨d, col, iv, ic, ev, es, cs, sv, scheds, h1, h2, h3, h4, h5, h6, hcs, hj, h8, h9, h10, rfl⟩
    have hl := base_layer w b d col ic es ho (buildAll_layer h6)
    have ha := InOrder.auto (base_inOrder w b d col ic es ho)
    obtain ⟨objs, hbp⟩ := base_bp w b d col ic es
    refine ⟨d, col, iv, ic, ev, es, _, sv, scheds, h1, h2, h3, h4, h5, h6,
      (parseConnections_ok hl ha).2 ⟨cs, hcs, hj, rfl⟩, h8, h9, ?_, ?_⟩
    · change sv.mapM (scheduleNew (World.setBp (w.base b d col ic es) _ _) b) = _
      rw [scheduleNew_setBp]
      · exact h10
      · rfl
    · symm
      change (World.setBp (World.setBp (w.base b d col ic es) _ _) _ _) = _
      rw [setBp_setBp]
      change (World.setBp (w.base b d col ic es) b
        { ((w.base b d col ic es).setBp b _).bp b with
          tiles := sortBy _ (((w.base b d col ic es).setBp b _).bp b).tiles, schedules := scheds }) = _
      rw [setBp_bp_self, hbp]
      rfl

end Verif
