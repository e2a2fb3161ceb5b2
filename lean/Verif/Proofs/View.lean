import Verif.Proofs.LoadBase
import Verif.Spec.View
/-!
# Helper lemmas: the content of a loaded blueprint does not depend on object identities
-/
set_option autoImplicit false

namespace Verif
open Spec

/-! ## Renaming -/

/-- Rename the ends of a wire. -/
def mapConn (f : Ref → Ref) (c : Conn) : Conn := { c with fromE := c.fromE.map f, toE := c.toE.map f }

/-- `refConn` with a given resolution of ids. -/
def refConnG (find : Val → Option Ref) (r : Ref) (side color : String) (c : Val) : Except Exc Conn := do
  let id ← c.subscript "entity_id"
  let d ← c.asDict
  Conn.new (some r) (find id) (.str side) (Dict.getD d "circuit_id" (.str "1")) color

def rawRefsG (find : Val → Option Ref) (r : Ref) (raw : Val) : Except Exc (List Conn) :=
  match raw with
  | .none => .ok []
  | raw => do
    let sides ← raw.asDict
    let l ← sides.mapM (fun p => do
      let colors ← Val.asDict p.2
      let l ← colors.mapM (fun q => do
        let cs ← Val.iter q.2
        cs.mapM (refConnG find r p.1 q.1))
      return l.flatten)
    return l.flatten

theorem rawRefs_eq (w : World) (b : BpId) : rawRefs w b = rawRefsG (getById w b) := rfl

/-- Apply a function to the result. -/
def mapOk {α β} (f : α → β) (x : Except Exc α) : Except Exc β := do return f (← x)

@[simp] theorem mapOk_ok {α β} (f : α → β) (a : α) : mapOk f (.ok a) = .ok (f a) := rfl
@[simp] theorem mapOk_error {α β} (f : α → β) (e : Exc) : mapOk f (.error e : Except Exc α) = .error e := rfl

theorem mapM_mapOk {α β γ} {F : α → Except Exc β} {G : α → Except Exc γ} {f : β → γ} (l : List α)
    (h : ∀ a ∈ l, G a = mapOk f (F a)) : l.mapM G = mapOk (List.map f) (l.mapM F) := by
  induction l with
  | nil => rfl
  | cons a l ih =>
    rw [List.mapM_cons, List.mapM_cons, h a (List.mem_cons_self ..),
      ih (fun x hx => h x (List.mem_cons_of_mem _ hx))]
    cases F a with
    | error e => rfl
    | ok b =>
      cases l.mapM F with
      | error e => rfl
      | ok bs => rfl

theorem refConnG_map (f : Ref → Ref) (find : Val → Option Ref) (r : Ref) (side color : String) (c : Val) :
    refConnG (fun v => (find v).map f) (f r) side color c =
      mapOk (mapConn f) (refConnG find r side color c) := by
  unfold refConnG
  cases c.subscript "entity_id" with
  | error e => rfl
  | ok id =>
    cases c.asDict with
    | error e => rfl
    | ok d =>
      simp only [ok_bind]
      unfold Conn.new
      cases pyInt (.str side) with
      | error e => rfl
      | ok a =>
        cases pyInt (Dict.getD d "circuit_id" (.str "1")) with
        | error e => rfl
        | ok a => rfl

theorem rawRefsG_map (f : Ref → Ref) (find : Val → Option Ref) (r : Ref) (raw : Val) :
    rawRefsG (fun v => (find v).map f) (f r) raw = mapOk (List.map (mapConn f)) (rawRefsG find r raw) := by
  unfold rawRefsG
  split
  · rfl
  · cases hd : Val.asDict _ with
    | error e => rfl
    | ok sides =>
      simp only [ok_bind]
      rw [mapM_mapOk (F := fun p : String × Val => do
          let colors ← Val.asDict p.2
          let l ← colors.mapM (fun q => do
            let cs ← Val.iter q.2
            cs.mapM (refConnG find r p.1 q.1))
          return l.flatten) (f := List.map (mapConn f))]
      · cases List.mapM (m := Except Exc) _ sides with
        | error e => rfl
        | ok l => simp [List.map_flatten]
      · intro p _
        cases Val.asDict p.2 with
        | error e => rfl
        | ok colors =>
          simp only [ok_bind]
          rw [mapM_mapOk (F := fun q : String × Val => do
            let cs ← Val.iter q.2
            cs.mapM (refConnG find r p.1 q.1)) (f := List.map (mapConn f))]
          · cases List.mapM (m := Except Exc) _ colors with
            | error e => rfl
            | ok l => simp [List.map_flatten]
          · intro q _
            cases q.2.iter with
            | error e => rfl
            | ok cs =>
              simp only [ok_bind]
              exact mapM_mapOk cs (fun c _ => refConnG_map f find r p.1 q.1 c)

/-! ## Loading by values -/

/-- Resolution of ids by values. -/
def findIdx (vals : List Entity) (v : Val) : Option Nat := vals.findIdx? (fun e => idEq e.number v)

/-- The wires in the connection data of the entities `vals`, with places as ends. -/
def pureWires (vals : List Entity) : Except Exc (List Conn) := do
  let css ← (List.range vals.length).mapM (fun i => rawRefsG (findIdx vals) i (vals.getD i default).raw)
  return css.flatten

theorem list_eq_map_range (l : List Ref) : l = (List.range l.length).map (fun i => l.getD i 0) := by
  apply List.ext_getElem
  · simp
  · intro i h1 h2
    simp [List.getD_eq_getElem?_getD, List.getElem?_eq_getElem h1]

theorem getById_findIdx (w : World) (b : BpId) (v : Val) :
    getById w b v = (findIdx ((w.bp b).objs.map w.heap) v).map (fun i => (w.bp b).objs.getD i 0) := by
  unfold getById findIdx
  generalize (w.bp b).objs = l
  induction l with
  | nil => rfl
  | cons r l ih =>
    rw [List.find?_cons, List.map_cons, List.findIdx?_cons]
    cases hc : idEq (w.heap r).number v with
    | true => rfl
    | false =>
      simp only [Bool.false_eq_true, if_false]
      rw [ih, Option.map_map]
      rfl

theorem mapM_map' {α β γ} (g : α → β) (F : β → Except Exc γ) (l : List α) :
    (l.map g).mapM F = l.mapM (fun a => F (g a)) := by
  induction l with
  | nil => rfl
  | cons a l ih => rw [List.map_cons, List.mapM_cons, List.mapM_cons, ih]

theorem rawWires_pure (w : World) (b : BpId) :
    w.rawWires b = mapOk (List.map (mapConn (fun i => (w.bp b).objs.getD i 0)))
      (pureWires ((w.bp b).objs.map w.heap)) := by
  unfold World.rawWires pureWires
  have hf : getById w b = fun v => (findIdx ((w.bp b).objs.map w.heap) v).map
      (fun i => (w.bp b).objs.getD i 0) := by
    funext v; exact getById_findIdx w b v
  have : (w.bp b).objs.mapM (fun r => rawRefs w b r (w.heap r).raw) =
      mapOk (List.map (List.map (mapConn (fun i => (w.bp b).objs.getD i 0))))
        ((List.range ((w.bp b).objs.map w.heap).length).mapM (fun i =>
          rawRefsG (findIdx ((w.bp b).objs.map w.heap)) i (((w.bp b).objs.map w.heap).getD i default).raw)) := by
    conv => lhs; rw [list_eq_map_range (w.bp b).objs]
    rw [mapM_map', List.length_map]
    refine mapM_mapOk _ (fun i hi => ?_)
    rw [rawRefs_eq, hf, rawRefsG_map]
    congr 2
    have hi' : i < (w.bp b).objs.length := List.mem_range.1 hi
    simp [List.getD_eq_getElem?_getD, List.getElem?_eq_getElem hi']
  rw [this]
  cases List.mapM (m := Except Exc) _ (List.range ((w.bp b).objs.map w.heap).length) with
  | error e => rfl
  | ok l => simp [List.map_flatten]

/-- Every end lies in the list. -/
def Conn.within (n : Nat) (c : Conn) : Prop := (∀ i, c.fromE = some i → i < n) ∧ ∀ i, c.toE = some i → i < n

theorem findIdx_lt {vals : List Entity} {v : Val} {i : Nat} (h : findIdx vals v = some i) :
    i < vals.length := by
  unfold findIdx at h
  rw [List.findIdx?_eq_some_iff_findIdx_eq] at h
  exact h.1

theorem refConnG_within {n : Nat} {find : Val → Option Ref} (hf : ∀ v i, find v = some i → i < n) {r : Ref}
    (hr : r < n) {side color : String} {v : Val} {c : Conn} (h : refConnG find r side color v = .ok c) :
    c.within n := by
  unfold refConnG at h
  simp only [bind_eq_ok] at h
  obtain ⟨id, -, d, -, h⟩ := h
  unfold Conn.new at h
  simp only [bind_eq_ok, pure_eq_ok, Except.ok.injEq] at h
  obtain ⟨x, -, y, -, rfl⟩ := h
  refine ⟨fun i hi => ?_, fun i hi => hf _ _ hi⟩
  cases hi
  exact hr

theorem rawRefsG_within {n : Nat} {find : Val → Option Ref} (hf : ∀ v i, find v = some i → i < n) {r : Ref}
    (hr : r < n) {raw : Val} {cs : List Conn} (h : rawRefsG find r raw = .ok cs) :
    ∀ c ∈ cs, c.within n := by
  unfold rawRefsG at h
  split at h
  · cases h; simp
  · simp only [bind_eq_ok, pure_eq_ok, Except.ok.injEq] at h
    obtain ⟨sides, hs, l, hl, rfl⟩ := h
    intro c hc
    obtain ⟨x, hx, hcx⟩ := List.mem_flatten.1 hc
    obtain ⟨⟨side, colv⟩, hp, hg⟩ := (mem_mapM_except hl x).1 hx
    simp only [bind_eq_ok, Except.ok.injEq] at hg
    obtain ⟨colors, hc1, ll, hll, rfl⟩ := hg
    obtain ⟨y, hy, hcy⟩ := List.mem_flatten.1 hcx
    obtain ⟨⟨color, vv⟩, hq, hg⟩ := (mem_mapM_except hll y).1 hy
    rw [bind_eq_ok] at hg
    obtain ⟨vs, hvs, hg⟩ := hg
    obtain ⟨v, hv, hcv⟩ := (mem_mapM_except hg c).1 hcy
    exact refConnG_within hf hr hcv

theorem pureWires_within {vals : List Entity} {cs : List Conn} (h : pureWires vals = .ok cs) :
    ∀ c ∈ cs, c.within vals.length := by
  unfold pureWires at h
  simp only [bind_eq_ok, pure_eq_ok, Except.ok.injEq] at h
  obtain ⟨l, hl, rfl⟩ := h
  intro c hc
  obtain ⟨x, hx, hcx⟩ := List.mem_flatten.1 hc
  obtain ⟨i, hi, hg⟩ := (mem_mapM_except hl x).1 hx
  exact rawRefsG_within (fun v i hv => findIdx_lt hv) (List.mem_range.1 hi) hg c hcx

/-! ## Renaming is invisible to the wire operations -/

section
variable {n : Nat} {f : Ref → Ref} (hf : ∀ i j, i < n → j < n → f i = f j → i = j)
include hf

theorem optMap_inj {a b : Option Ref} (ha : ∀ i, a = some i → i < n) (hb : ∀ i, b = some i → i < n) :
    a.map f = b.map f ↔ a = b := by
  cases a with
  | none => cases b <;> simp
  | some i =>
    cases b with
    | none => simp
    | some j =>
      simp only [Option.map_some, Option.some.injEq]
      exact ⟨fun h => hf i j (ha i rfl) (hb j rfl) h, fun h => by rw [h]⟩

theorem mapConn_sameWire {c d : Conn} (hc : c.within n) (hd : d.within n) :
    SameWire (mapConn f c) (mapConn f d) ↔ SameWire c d := by
  obtain ⟨a1, a2, a3, a4, a5⟩ := c
  obtain ⟨b1, b2, b3, b4, b5⟩ := d
  unfold SameWire mapConn Conn.flip
  simp only [Conn.mk.injEq]
  rw [optMap_inj hf hc.1 hd.1, optMap_inj hf hc.2 hd.2, optMap_inj hf hc.1 hd.2, optMap_inj hf hc.2 hd.1]

theorem mapConn_addConn {cs : List Conn} {c : Conn} (hcs : ∀ d ∈ cs, d.within n) (hc : c.within n) :
    addConn (cs.map (mapConn f)) (mapConn f c) = (addConn cs c).map (mapConn f) := by
  unfold addConn
  have : (cs.map (mapConn f)).any (fun d => d.eqv (mapConn f c)) = cs.any (fun d => d.eqv c) := by
    rw [List.any_map]
    apply Bool.eq_iff_iff.2
    rw [List.any_eq_true, List.any_eq_true]
    constructor
    · rintro ⟨d, hd, h⟩
      refine ⟨d, hd, ?_⟩
      simp only [Function.comp_apply] at h
      rw [eqv_iff, mapConn_sameWire hf (hcs d hd) hc] at h
      exact (eqv_iff d c).2 h
    · rintro ⟨d, hd, h⟩
      refine ⟨d, hd, ?_⟩
      simp only [Function.comp_apply]
      rw [eqv_iff, mapConn_sameWire hf (hcs d hd) hc]
      exact (eqv_iff d c).1 h
  rw [this]
  split <;> simp

theorem mapConn_fold {l cs : List Conn} (hcs : ∀ d ∈ cs, d.within n) (hl : ∀ d ∈ l, d.within n) :
    (l.map (mapConn f)).foldl addConn (cs.map (mapConn f)) = (l.foldl addConn cs).map (mapConn f) := by
  induction l generalizing cs with
  | nil => rfl
  | cons c l ih =>
    rw [List.map_cons, List.foldl_cons, List.foldl_cons,
      mapConn_addConn hf hcs (hl c (List.mem_cons_self ..))]
    refine ih ?_ (fun d hd => hl d (List.mem_cons_of_mem _ hd))
    intro d hd
    rcases mem_addConn hd with hd | rfl
    · exact hcs d hd
    · exact hl d (List.mem_cons_self ..)

theorem mapConn_attached {c : Conn} (hc : c.within n) {r : Ref} (hr : r < n) :
    (mapConn f c).attachedTo (f r) = c.attachedTo r := by
  apply Bool.eq_iff_iff.2
  rw [attachedTo_iff, attachedTo_iff]
  unfold mapConn
  have h1 := optMap_inj hf hc.1 (b := some r) (by rintro i ⟨⟩; exact hr)
  have h2 := optMap_inj hf hc.2 (b := some r) (by rintro i ⟨⟩; exact hr)
  rw [Option.map_some] at h1 h2
  dsimp only
  rw [h1, h2]

theorem mapConn_orientFor {c : Conn} (hc : c.within n) {r : Ref} (hr : r < n) :
    orientFor (f r) (mapConn f c) = mapConn f (orientFor r c) := by
  unfold orientFor
  rw [mapConn_attached hf hc hr]
  split
  · unfold Conn.orientate
    have h2 := optMap_inj hf hc.2 (b := some r) (by rintro i ⟨⟩; exact hr)
    rw [Option.map_some] at h2
    by_cases h : c.toE = some r
    · have h' : (mapConn f c).toE = some (f r) := h2.2 h
      rw [h, h']
      simp only [BEq.rfl, if_true]
      rfl
    · have h' : (mapConn f c).toE ≠ some (f r) := fun e => h (h2.1 e)
      rw [if_neg (by simpa using h'), if_neg (by simpa using h)]
  · rfl

omit hf in
theorem within_sameWire {c d : Conn} (h : SameWire c d) (hd : d.within n) : c.within n := by
  rcases h with rfl | rfl
  · exact hd
  · exact ⟨hd.2, hd.1⟩

theorem mapConn_orientTo {c : Conn} (hc : c.within n) {l : List Ref} (hl : ∀ r ∈ l, r < n) :
    orientTo (l.map f) (mapConn f c) = mapConn f (orientTo l c) := by
  unfold orientTo
  induction l generalizing c with
  | nil => rfl
  | cons r l ih =>
    rw [List.map_cons, List.foldl_cons, List.foldl_cons,
      mapConn_orientFor hf hc (hl r (List.mem_cons_self ..))]
    exact ih (within_sameWire (SameWire.orientFor r c) hc) (fun s hs => hl s (List.mem_cons_of_mem _ hs))

end

/-! ## The content of a loaded blueprint -/

/-- `Schedule(…)` by values. -/
def pureSched (vals : List Entity) (v : Val) : Except Exc (List Nat × Val) := do
  let kw ← v.kwargs
  if kw.any (fun p => p.1 != "schedule" && p.1 != "locomotives") then throw .typeError
  else match Dict.get? kw "schedule", Dict.get? kw "locomotives" with
  | some s, some l => do
    let ids ← l.iter
    return ((ids.filterMap (findIdx vals)), s)
  | _, _ => throw .typeError

theorem scheduleNew_pure (w : World) (b : BpId) (v : Val) :
    scheduleNew w b v = mapOk (fun p => (p.1.map (fun i => (w.bp b).objs.getD i 0), p.2))
      (pureSched ((w.bp b).objs.map w.heap) v) := by
  unfold scheduleNew pureSched
  cases v.kwargs with
  | error e => rfl
  | ok kw =>
    simp only [ok_bind]
    split
    · rfl
    · cases Dict.get? kw "schedule" with
      | none => rfl
      | some s =>
        cases Dict.get? kw "locomotives" with
        | none => rfl
        | some l =>
          dsimp only
          cases l.iter with
          | error e => rfl
          | ok ids =>
            simp only [ok_bind, pure_eq_ok, mapOk_ok]
            congr 2
            rw [List.map_filterMap]
            congr 1
            funext v
            exact getById_findIdx w b v

/-- The entities of a blueprint in order. -/
def World.vals (w : World) (b : BpId) : List Entity := (w.bp b).objs.map w.heap

@[simp] theorem vals_length (w : World) (b : BpId) : (w.vals b).length = (w.bp b).objs.length := by
  simp [World.vals]

theorem getD_inj {l : List Ref} (h : l.Nodup) :
    ∀ i j, i < l.length → j < l.length → l.getD i 0 = l.getD j 0 → i = j := by
  intro i j hi hj e
  simp only [List.getD_eq_getElem?_getD, List.getElem?_eq_getElem hi, List.getElem?_eq_getElem hj,
    Option.getD_some] at e
  exact (List.getElem_inj h).1 e

theorem idxOf_getD {l : List Ref} (h : l.Nodup) {i : Nat} (hi : i < l.length) :
    List.idxOf (l.getD i 0) l = i := by
  simp only [List.getD_eq_getElem?_getD, List.getElem?_eq_getElem hi, Option.getD_some]
  exact h.idxOf_getElem i hi

theorem place_mapConn {l : List Ref} (h : l.Nodup) {c : Conn} (hc : c.within l.length) :
    place l (mapConn (fun i => l.getD i 0) c) = c := by
  obtain ⟨f, t, a, b, k⟩ := c
  unfold place mapConn
  simp only [Option.map_map, Conn.mk.injEq, and_true]
  refine ⟨?_, ?_⟩
  · cases f with
    | none => rfl
    | some i => exact congrArg some (idxOf_getD h (hc.1 i rfl))
  · cases t with
    | none => rfl
    | some i => exact congrArg some (idxOf_getD h (hc.2 i rfl))

theorem mapConn_joined (f : Ref → Ref) (c : Conn) : (mapConn f c).joined ↔ c.joined := by
  simp [mapConn, Conn.joined]

theorem mapOk_eq_ok {α β} {f : α → β} {x : Except Exc α} {b : β} :
    mapOk f x = .ok b ↔ ∃ a, x = .ok a ∧ f a = b := by
  cases x with
  | error e => simp
  | ok a => simp

/-- Loading and the resulting content, by values. -/
theorem load_view {b : BpId} {data : Val} {w : World} (ho : Owned w) (V : View) :
    (∃ w', load b data w = (.ok (), w') ∧ view w' b = V) ↔
    ∃ d col iv ic ev es cs sv ss,
      unwrapData data = .ok d ∧
      colorAfter (w.bp b).labelColor (Dict.getD d "label_color" .none) = .ok col ∧
      (Dict.getD d "icons" (.list [])).iter = .ok iv ∧
      iconsAll w.env iv [none, none, none, none] = .ok ic ∧
      (Dict.getD d "entities" (.list [])).iter = .ok ev ∧
      buildAll w.env (w.customOf (some b)) b ev = .ok es ∧
      pureWires ((w.base b d col ic es).vals b) = .ok cs ∧ (∀ c ∈ cs, c.joined) ∧
      (Dict.getD d "tiles" (.list [])).iter = .ok [] ∧
      (Dict.getD d "schedules" (.list [])).iter = .ok sv ∧
      sv.mapM (pureSched ((w.base b d col ic es).vals b)) = .ok ss ∧
      V = { entities := (w.base b d col ic es).vals b
            wires := (cs.foldl addConn []).map (orientTo (List.range ((w.base b d col ic es).vals b).length))
            schedules := ss
            tiles := sortBy (fun s t => posLe s.pos t.pos) (w.bp b).tiles
            item := Dict.getD d "item" (.str "blueprint")
            label := Dict.getD d "label" .none
            labelColor := col
            icons := ic
            version := Dict.getD d "version" (.int 0) } := by
  have key : ∀ (d : Dict) (col : Option Color) (ic : List (Option Val)) (es : List Entity)
      (cs : List Conn) (ss : List (List Nat × Val)) (ts : List Tile),
      (∀ c ∈ cs, c.within ((w.base b d col ic es).vals b).length) →
      (∀ s ∈ ss, ∀ i ∈ s.1, i < ((w.base b d col ic es).vals b).length) →
      view ((w.base b d col ic es).setBp b { (w.base b d col ic es).bp b with
        conns := ((cs.map (mapConn (fun i => ((w.base b d col ic es).bp b).objs.getD i 0))).foldl addConn []).map
          (orientTo ((w.base b d col ic es).bp b).objs),
        tiles := ts,
        schedules := ss.map (fun p => (p.1.map (fun i => ((w.base b d col ic es).bp b).objs.getD i 0), p.2)) }) b =
      { entities := (w.base b d col ic es).vals b
        wires := (cs.foldl addConn []).map (orientTo (List.range ((w.base b d col ic es).vals b).length))
        schedules := ss
        tiles := ts
        item := Dict.getD d "item" (.str "blueprint")
        label := Dict.getD d "label" .none
        labelColor := col
        icons := ic
        version := Dict.getD d "version" (.int 0) } := by
    intro d col ic es cs ss ts hcs hss
    have hnd := base_objs_nodup w b d col ic es ho
    obtain ⟨objs, hbp⟩ := base_bp w b d col ic es
    have hinj := getD_inj hnd
    have hlen := vals_length (w.base b d col ic es) b
    rw [hlen] at hcs hss
    have hfold := mapConn_fold (f := fun i => ((w.base b d col ic es).bp b).objs.getD i 0)
      (n := ((w.base b d col ic es).bp b).objs.length) hinj (l := cs) (cs := []) (by simp) hcs
    rw [List.map_nil] at hfold
    have hwithin : ∀ c ∈ cs.foldl addConn [], c.within ((w.base b d col ic es).bp b).objs.length := by
      intro c hc
      rcases mem_foldl_addConn hc with hc | hc
      · cases hc
      · exact hcs c hc
    unfold view
    rw [setBp_bp_self, hfold]
    have e1 : (((cs.foldl addConn []).map
          (mapConn (fun i => ((w.base b d col ic es).bp b).objs.getD i 0))).map
          (orientTo ((w.base b d col ic es).bp b).objs)).map (place ((w.base b d col ic es).bp b).objs) =
        (cs.foldl addConn []).map (orientTo (List.range ((w.base b d col ic es).vals b).length)) := by
      rw [List.map_map, List.map_map, hlen]
      refine List.map_congr_left (fun c hc => ?_)
      simp only [Function.comp_apply]
      have hto : orientTo ((w.base b d col ic es).bp b).objs
            (mapConn (fun i => ((w.base b d col ic es).bp b).objs.getD i 0) c) =
          mapConn (fun i => ((w.base b d col ic es).bp b).objs.getD i 0)
            (orientTo (List.range ((w.base b d col ic es).bp b).objs.length) c) := by
        conv => lhs; arg 1; rw [list_eq_map_range ((w.base b d col ic es).bp b).objs]
        exact mapConn_orientTo hinj (hwithin c hc) (fun r hr => List.mem_range.1 hr)
      rw [hto]
      exact place_mapConn hnd (within_sameWire (SameWire.orientTo _ c) (hwithin c hc))
    have e2 : (ss.map (fun p => (p.1.map (fun i => ((w.base b d col ic es).bp b).objs.getD i 0), p.2))).map
        (fun s => (s.1.map (List.idxOf · ((w.base b d col ic es).bp b).objs), s.2)) = ss := by
      rw [List.map_map]
      conv => rhs; rw [← List.map_id ss]
      refine List.map_congr_left (fun s hs => ?_)
      simp only [Function.comp_apply, List.map_map, id]
      refine Prod.ext ?_ rfl
      conv => rhs; rw [← List.map_id s.1]
      refine List.map_congr_left (fun i hi => ?_)
      simp only [Function.comp_apply, id]
      exact idxOf_getD hnd (hss s hs i hi)
    dsimp only
    rw [e1, e2]
    rw [View.mk.injEq]
    refine ⟨rfl, rfl, rfl, rfl, ?_, ?_, ?_, ?_, ?_⟩ <;> rw [hbp] <;> rfl
  have hin : ∀ {vals : List Entity} {sv : List Val} {ss : List (List Nat × Val)},
      sv.mapM (pureSched vals) = .ok ss → ∀ s ∈ ss, ∀ i ∈ s.1, i < vals.length := by
    intro vals sv ss h s hs i hi
    obtain ⟨v, -, hv⟩ := (mem_mapM_except h s).1 hs
    unfold pureSched at hv
    rw [bind_eq_ok] at hv
    obtain ⟨kw, -, hv⟩ := hv
    split at hv
    · cases hv
    · split at hv
      · simp only [bind_eq_ok, pure_eq_ok, Except.ok.injEq] at hv
        obtain ⟨ids, -, rfl⟩ := hv
        obtain ⟨v, -, hv⟩ := List.mem_filterMap.1 hi
        exact findIdx_lt hv
      · cases hv
  have hsn : ∀ (X : World) (sv : List Val) (ss : List (List Nat × Val)),
      sv.mapM (pureSched (X.vals b)) = .ok ss → sv.mapM (scheduleNew X b) =
        .ok (ss.map (fun p => (p.1.map (fun i => (X.bp b).objs.getD i 0), p.2))) := by
    intro X sv ss h
    rw [mapM_mapOk sv (F := pureSched (X.vals b)) (fun v _ => scheduleNew_pure X b v), h]
    rfl
  constructor
  · rintro ⟨w', hw, rfl⟩
    obtain ⟨d, col, iv, ic, ev, es, cs, sv, scheds, h1, h2, h3, h4, h5, h6, h7, h8, h9, h10, h11, rfl⟩ :=
      (load_ok ho).1 hw
    rw [rawWires_pure, mapOk_eq_ok] at h7
    obtain ⟨pcs, hp, rfl⟩ := h7
    rw [mapM_mapOk sv (F := pureSched ((w.base b d col ic es).vals b))
      (fun v _ => scheduleNew_pure _ b v), mapOk_eq_ok] at h11
    obtain ⟨ss, hss, rfl⟩ := h11
    refine ⟨d, col, iv, ic, ev, es, pcs, sv, ss, h1, h2, h3, h4, h5, h6, hp, ?_, h9, h10, hss, ?_⟩
    · intro c hc
      exact (mapConn_joined _ c).1 (h8 _ (List.mem_map.2 ⟨c, hc, rfl⟩))
    · exact key d col ic es pcs ss _ (pureWires_within hp) (hin hss)
  · rintro ⟨d, col, iv, ic, ev, es, pcs, sv, ss, h1, h2, h3, h4, h5, h6, hp, h8, h9, h10, hss, rfl⟩
    refine ⟨_, (load_ok ho).2 ⟨d, col, iv, ic, ev, es,
      pcs.map (mapConn (fun i => ((w.base b d col ic es).bp b).objs.getD i 0)), sv, _, h1, h2, h3, h4, h5, h6,
      ?_, ?_, h9, h10, hsn _ sv ss hss, rfl⟩, ?_⟩
    · rw [rawWires_pure]
      unfold World.vals at hp
      rw [hp]
      rfl
    · intro c hc
      obtain ⟨c', hc', rfl⟩ := List.mem_map.1 hc
      exact (mapConn_joined _ c').2 (h8 c' hc')
    · exact key d col ic es pcs ss _ (pureWires_within hp) (hin hss)

end Verif
