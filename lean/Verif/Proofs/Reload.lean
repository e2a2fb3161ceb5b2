import Verif.Spec.Reload
import Verif.Proofs.Text
import Verif.Proofs.Content
import Verif.Proofs.WireExport
import Verif.Proofs.RoundTrip
/-!
# Helper lemmas: importing an exported blueprint
-/
set_option autoImplicit false

namespace Verif
open Spec

/-! ## Exporting one entity -/

theorem entToJson_parts {r : Ref} {w w' : World} {v : Val} (h : entToJson r w = (.ok v, w')) :
    ∃ o d, v = .dict d ∧ connectionsToJson r w = (.ok o, w') ∧
      (w.heap r).emitRest w.env (baseObj (w.heap r) (if o.isEmpty then none else some (wireJson o))) = .ok d := by
  unfold entToJson at h
  rw [M.bind_get, M.bind_eq_ok] at h
  obtain ⟨o, v1, h1, h⟩ := h
  rw [M.bind_eq_ok] at h
  obtain ⟨d, v2, h2, h⟩ := h
  cases h
  rw [M.lift_eq] at h2
  have h2' := congrArg Prod.fst h2
  have h2'' := congrArg Prod.snd h2
  dsimp only at h2''
  subst h2''
  refine ⟨o, d, rfl, h1, ?_⟩
  refine Eq.trans ?_ h2'
  show _ = Entity.emitRest w.env (w.heap r) _
  congr 1
  cases o <;> rfl

theorem connectionsToJson_total {r : Ref} {w : World} {b : BpId} (hl : (w.heap r).layer = some b)
    (hj : ∀ c ∈ (w.bp b).conns, c.joined)
    (hn : ∀ c ∈ (w.bp b).conns, ∀ s, c.fromE = some s ∨ c.toE = some s → ∃ n, (w.heap s).auto = some n) :
    ∃ o w', connectionsToJson r w = (.ok o, w') := by
  have hmine : ∀ c ∈ ((w.bp b).conns.filter (·.attachedTo r)).map (·.orientate r),
      ∃ t n, c.toE = some t ∧ (w.heap t).auto = some n := by
    intro c hc
    obtain ⟨d, hd, rfl⟩ := List.mem_map.1 hc
    have hd := (List.mem_filter.1 hd).1
    have hs := SameWire.orientate d r
    have := (SameWire.joined hs).2 (hj d hd)
    cases ht : (d.orientate r).toE with
    | none => exact absurd ht this.2
    | some t =>
      have : d.fromE = some t ∨ d.toE = some t := by
        rcases hs with hs | hs <;> rw [hs] at ht
        · exact .inr ht
        · exact .inl ht
      obtain ⟨n, hn⟩ := hn d hd t this
      exact ⟨t, n, rfl, hn⟩
  obtain ⟨keyed, hk⟩ := mapM_except_ok (l := ((w.bp b).conns.filter (·.attachedTo r)).map (·.orientate r))
    (f := fun c => (do return ((← otherAuto w.heap c), c) : Except Exc (Option Int × Conn))) (by
      intro c hc
      obtain ⟨t, n, ht, -⟩ := hmine c hc
      exact ⟨((w.heap t).auto, c), by simp only [otherAuto, ht]; rfl⟩)
  have hkeyed : ∀ p ∈ keyed, ∃ t n, p.2.toE = some t ∧ p.1 = some n := by
    intro p hp
    obtain ⟨c, hc, he⟩ := (mem_mapM_except hk p).1 hp
    obtain ⟨t, n, ht, hn⟩ := hmine c hc
    simp only [otherAuto, ht] at he
    cases he
    exact ⟨t, n, ht, hn⟩
  have hmix : mixedKeys (keyed.map (·.1)) = false := by
    unfold mixedKeys
    have : (keyed.map (·.1)).any (·.isNone) = false := by
      rw [List.any_eq_false]
      intro k hk
      obtain ⟨p, hp, rfl⟩ := List.mem_map.1 hk
      obtain ⟨t, n, -, hn⟩ := hkeyed p hp
      rw [hn]
      simp
    rw [this]
    rfl
  have hg : getConnections r w = (.ok ((sortBy (fun x y => autoLe x.1 y.1) keyed).map (·.2)),
      w.setBp b { w.bp b with conns := (w.bp b).conns.map (orientFor r) }) := by
    unfold getConnections
    rw [hl]
    dsimp only
    rw [show (w.setBp b { w.bp b with conns := (w.bp b).conns.map (fun c => if c.attachedTo r then c.orientate r else c) }).heap = w.heap from rfl,
      hk]
    dsimp only
    rw [hmix]
    rfl
  have hstep : ∀ (cs : List Conn) (o : WireObj), (∀ c ∈ cs, ∃ t, c.toE = some t) →
      ∃ o', cs.foldlM (wireStep w.heap r) o = .ok o' := by
    intro cs
    induction cs with
    | nil => exact fun o _ => ⟨o, rfl⟩
    | cons c cs ih =>
      intro o hc
      obtain ⟨t, ht⟩ := hc c (List.mem_cons_self ..)
      obtain ⟨o1, h1⟩ : ∃ o1, wireStep w.heap r o c = .ok o1 := by
        unfold wireStep
        rw [ht]
        exact ⟨_, rfl⟩
      obtain ⟨o', h'⟩ := ih o1 (fun d hd => hc d (List.mem_cons_of_mem _ hd))
      exact ⟨o', by rw [List.foldlM_cons, h1]; exact h'⟩
  obtain ⟨o, ho⟩ := hstep ((sortBy (fun x y => autoLe x.1 y.1) keyed).map (·.2)) [] (by
    intro c hc
    obtain ⟨p, hp, rfl⟩ := List.mem_map.1 hc
    obtain ⟨t, n, ht, -⟩ := hkeyed p ((mem_sortBy _).1 hp)
    exact ⟨t, ht⟩)
  exact ⟨o, _, connectionsToJson_ok.2 ⟨_, hg, ho⟩⟩

/-- The settings an entity exports, without its wires. -/
def Entity.settings (env : Env) (e : Entity) : Except Exc Dict :=
  e.emitRest env [("name", .str e.name), ("position", e.pos.toJson)]

theorem settings_of_base {env : Env} {e : Entity} {c : Option Val} {d : Dict}
    (h : e.emitRest env (baseObj e c) = .ok d) : e.settings env = .ok (entitySettings d) := by
  have := emitRest_settings (env := env) (e := e) (obj := baseObj e c)
  rw [h, baseObj_settings] at this
  exact this.symm

theorem base_of_settings {env : Env} {e : Entity} {s : Dict} (h : e.settings env = .ok s) (c : Option Val) :
    ∃ d, e.emitRest env (baseObj e c) = .ok d ∧ entitySettings d = s := by
  have := emitRest_settings (env := env) (e := e) (obj := baseObj e c)
  rw [baseObj_settings] at this
  have h' := this.trans h
  cases hx : e.emitRest env (baseObj e c) with
  | error x => rw [hx] at h'; cases h'
  | ok d => rw [hx] at h'; cases h'; exact ⟨d, rfl, rfl⟩

theorem hasSettings {r : Ref} {w : World} {b : BpId} {s : Dict} (hl : (w.heap r).layer = some b)
    (hj : ∀ c ∈ (w.bp b).conns, c.joined)
    (hn : ∀ c ∈ (w.bp b).conns, ∀ s, c.fromE = some s ∨ c.toE = some s → ∃ n, (w.heap s).auto = some n)
    (hs : (w.heap r).settings w.env = .ok s) : HasSettings w r s := by
  obtain ⟨o, w', ho⟩ := connectionsToJson_total hl hj hn
  obtain ⟨d, hd, he⟩ := base_of_settings hs (if o.isEmpty then none else some (wireJson o))
  refine ⟨d, w', ?_, he⟩
  unfold entToJson
  rw [M.bind_get, M.bind_ok ho]
  have h2 : M.lift ((w.heap r).emitRest w.env (if o.isEmpty then
      [("entity_number", autoVal (w.heap r).auto), ("name", .str (w.heap r).name), ("position", (w.heap r).pos.toJson)]
      else [("entity_number", autoVal (w.heap r).auto), ("name", .str (w.heap r).name), ("position", (w.heap r).pos.toJson)]
        ++ [("connections", wireJson o)])) w' = (.ok d, w') := by
    rw [M.lift_eq]
    refine congrArg (fun x => (x, w')) (Eq.trans ?_ hd)
    congr 1
    cases o <;> rfl
  exact (M.bind_ok h2).trans rfl

/-! ## The parts of an export -/

theorem export_parts {w w' : World} (h : Owned w) {b : BpId} {v : Val} (he : toJson b w = (.ok v, w')) :
    ∃ ents icons, iconsJson w.env 0 (w.bp b).icons = .ok icons ∧
      v = .dict [("blueprint", .dict (exportDict (w.bp b) ents icons
        ((w.bp b).schedules.map (scheduleJson w.heap))))] ∧
      ents.length = (w.bp b).objs.length ∧ ∀ i (hi : i < (w.bp b).objs.length), ∃ d o cs,
        ents[i]? = some (.dict d) ∧
        (w.heap (w.bp b).objs[i]).emitRest w.env
          (baseObj (w.heap (w.bp b).objs[i]) (if o.isEmpty then none else some (wireJson o))) = .ok d ∧
        o.Distinct ∧ (∀ c ∈ cs, c.fromE = some (w.bp b).objs[i] ∧ ∃ t, c.toE = some t) ∧
        (∀ c ∈ cs, ∃ d ∈ (w.bp b).conns, SameWire c d) ∧
        (∀ s k, under o s k = contribs w.heap (w.bp b).objs[i] cs s k) ∧
        ∀ s k, (farEnds cs (w.bp b).objs[i] s k).Perm (farEnds (w.bp b).conns (w.bp b).objs[i] s k) := by
  obtain ⟨ents, icons, hm, hi, rfl⟩ := toJson_ok.1 he
  obtain ⟨hlen, hget⟩ := mapL_get (fun r => Keeps.flips_entToJson w r) hm (SameUpToFlips.refl w)
  refine ⟨ents, icons, hi, rfl, hlen, fun i hi => ?_⟩
  obtain ⟨x, x', u, hx, hu, hent⟩ := hget i hi
  obtain ⟨o, d, rfl, hc, hd⟩ := entToJson_parts hent
  have hl : (x.heap (w.bp b).objs[i]).layer = some b := by
    rw [hx.heap]; exact h.layer b _ (List.getElem_mem hi)
  obtain ⟨hdist, -, cs, hcs, hsame, hun, hfar⟩ := connectionsToJson_refs hl hc
  rw [hx.heap, hx.env] at hd
  refine ⟨d, o, cs, hu, hd, hdist, hcs, ?_, ?_, ?_⟩
  · intro c hc
    obtain ⟨e, he, rfl, -⟩ := hsame c hc
    obtain ⟨f, hf, hs⟩ := pairwise_forall₂.forall₂_mem (hx.conns b) e he
    exact ⟨f, hf, (SameWire.orientate e _).trans hs⟩
  · intro s k
    rw [hun, hx.heap]
  · intro s k
    exact (hfar s k).trans (farEnds_forall₂ (hx.conns b) _ _ _)

theorem mem_contribs {heap : Ref → Entity} {r : Ref} {cs : List Conn} {s : Int} {k : String} {u : Val} :
    u ∈ contribs heap r cs s k ↔ ∃ c ∈ cs, ∃ t, c.toE = some t ∧
      ((t = r ∧ s = c.toSide ∧ k = c.color ∧ u = wireRef (heap r) c.fromSide) ∨
        (s = c.fromSide ∧ k = c.color ∧ u = wireRef (heap t) c.fromSide)) := by
  unfold contribs
  rw [List.mem_flatMap]
  constructor
  · rintro ⟨c, hc, h⟩
    cases ht : c.toE with
    | none => rw [ht] at h; cases h
    | some t =>
      rw [ht] at h
      refine ⟨c, hc, t, ht, ?_⟩
      unfold contrib at h
      rcases List.mem_append.1 h with h | h
      · split at h
        · rename_i hh
          exact .inl ⟨hh.1, hh.2.1, hh.2.2, List.mem_singleton.1 h⟩
        · cases h
      · split at h
        · rename_i hh
          exact .inr ⟨hh.1, hh.2, List.mem_singleton.1 h⟩
        · cases h
  · rintro ⟨c, hc, t, ht, h⟩
    refine ⟨c, hc, ?_⟩
    rw [ht]
    unfold contrib
    rcases h with ⟨h1, h2, h3, rfl⟩ | ⟨h1, h2, rfl⟩
    · exact List.mem_append_left _ (by rw [if_pos ⟨h1, h2, h3⟩]; simp)
    · exact List.mem_append_right _ (by rw [if_pos ⟨h1, h2⟩]; simp)

/-- The references an entity exports. -/
theorem refs_joins {w : World} {b : BpId} (hr : Reloadable w b) {r : Ref} {o : WireObj} {cs : List Conn}
    (hcs : ∀ c ∈ cs, c.fromE = some r ∧ ∃ t, c.toE = some t)
    (hsame : ∀ c ∈ cs, ∃ d ∈ (w.bp b).conns, SameWire c d)
    (hun : ∀ s k, under o s k = contribs w.heap r cs s k)
    (hfar : ∀ s k, (farEnds cs r s k).Perm (farEnds (w.bp b).conns r s k)) (s : Int) (k : String) (u : Val) :
    u ∈ under o s k ↔ ∃ t ∈ (w.bp b).objs, (∃ c ∈ (w.bp b).conns, Joins c r s t s k) ∧ u = wireRef (w.heap t) s := by
  rw [hun, mem_contribs]
  have hside : ∀ c ∈ cs, c.fromSide = c.toSide := by
    intro c hc
    obtain ⟨d, hd, hs⟩ := hsame c hc
    obtain ⟨_, _, _, _, _, _, h, _⟩ := hr.wires d hd
    rcases hs with rfl | rfl
    · exact h
    · exact h.symm
  constructor
  · rintro ⟨c, hc, t, ht, h⟩
    obtain ⟨d, hd, hs⟩ := hsame c hc
    have hj : c.color = k → s = c.fromSide → ∃ c ∈ (w.bp b).conns, Joins c r s t s k := by
      intro hk hf
      refine ⟨d, hd, ?_⟩
      have hc' : c = ⟨some r, some t, s, s, k⟩ := by
        have h1 := (hcs c hc).1
        have h2 := hside c hc
        obtain ⟨f, t', a, b', k'⟩ := c
        simp only at *
        subst h1 ht hk hf h2
        rfl
      rw [hc'] at hs
      exact joins_of_sameWire hs.symm
    have htm : t ∈ (w.bp b).objs := by
      obtain ⟨r1, hr1, s1, hs1, hf1, ht1, -⟩ := hr.wires d hd
      rcases hs with rfl | rfl
      · rw [ht1] at ht; cases ht; exact hs1
      · have : d.fromE = some t := ht
        rw [hf1] at this; cases this; exact hr1
    rcases h with ⟨h1, h2, h3, rfl⟩ | ⟨h1, h2, rfl⟩
    · have hf : s = c.fromSide := h2.trans (hside c hc).symm
      exact ⟨t, htm, hj h3.symm hf, by rw [h1, hf]⟩
    · exact ⟨t, htm, hj h2.symm h1, by rw [h1]⟩
  · rintro ⟨t, -, ⟨c, hc, hj⟩, rfl⟩
    have hm : (some t, s) ∈ farEnds (w.bp b).conns r s k := by
      refine mem_farEnds.2 ⟨c, hc, hj.1, ?_⟩
      rcases hj.2 with ⟨h1, h2, h3, h4⟩ | ⟨h1, h2, h3, h4⟩
      · exact .inl ⟨h1, h2, h3, h4⟩
      · exact .inr ⟨h3, h4, h1, h2⟩
    obtain ⟨c', hc', hk, h⟩ := mem_farEnds.1 ((hfar s k).mem_iff.2 hm)
    obtain ⟨hf', t', ht'⟩ := hcs c' hc'
    rcases h with ⟨h1, h2, h3, h4⟩ | ⟨h1, h2, h3, h4⟩
    · exact ⟨c', hc', t, h3, .inr ⟨h2.symm, hk.symm, by rw [h2]⟩⟩
    · refine ⟨c', hc', r, h1, .inl ⟨rfl, h2.symm, hk.symm, ?_⟩⟩
      have : some r = some t := hf'.symm.trans h3
      cases this
      rw [hside c' hc', h2]

theorem refConnG_wireRef (find : Val → Option Ref) (i : Ref) (s z : Int) (k : String) (e : Entity) :
    refConnG find i s.repr k (wireRef e z) = .ok ⟨some i, find (autoVal e.auto), s,
      if e.klass.nrConnections = 2 then z else 1, k⟩ := by
  unfold refConnG wireRef
  by_cases h : e.klass.nrConnections = 2
  · rw [if_pos h, if_pos h]
    show Conn.new (some i) (find (autoVal e.auto)) (.str s.repr) (.int z) k = _
    unfold Conn.new
    rw [pyInt_repr]
    rfl
  · rw [if_neg h, if_neg h]
    show Conn.new (some i) (find (autoVal e.auto)) (.str s.repr) (.str "1") k = _
    unfold Conn.new
    rw [pyInt_repr]
    rfl

theorem mapM_ok_of {α β} {f : α → Except Exc β} {l : List α} {g : α → β} (h : ∀ a ∈ l, f a = .ok (g a)) :
    l.mapM f = .ok (l.map g) := by
  induction l with
  | nil => rfl
  | cons a l ih =>
    rw [List.mapM_cons, h a (List.mem_cons_self ..), ih (fun b hb => h b (List.mem_cons_of_mem _ hb))]
    rfl

/-- Reading an exported wire dict. -/
theorem rawRefsG_wireJson {find : Val → Option Ref} {i : Ref} {o : WireObj} (hd : o.Distinct) {g : Int → String → Val → Conn}
    (h : ∀ s k, ∀ u ∈ under o s k, refConnG find i s.repr k u = .ok (g s k u)) :
    ∃ cs, rawRefsG find i ((if o.isEmpty then none else some (wireJson o)).getD .none) = .ok cs ∧
      ∀ c, c ∈ cs ↔ ∃ s k u, u ∈ under o s k ∧ c = g s k u := by
  have hraw : rawRefsG find i ((if o.isEmpty then none else some (wireJson o)).getD .none) =
      .ok ((o.map (fun p => (p.2.map (fun q => q.2.map (g p.1 q.1))).flatten)).flatten) := by
    cases o with
    | nil => rfl
    | cons p0 o0 =>
      generalize hgo : p0 :: o0 = o at *
      rw [show (if o.isEmpty then none else some (wireJson o)).getD .none = wireJson o by rw [← hgo]; rfl]
      show (do
        let l ← (o.map (fun p => (p.1.repr, Val.dict (p.2.map (fun q => (q.1, Val.list q.2)))))).mapM (fun p => do
          let colors ← Val.asDict p.2
          let l ← colors.mapM (fun q => do
            let cs ← Val.iter q.2
            cs.mapM (refConnG find i p.1 q.1))
          return l.flatten)
        return l.flatten : Except Exc (List Conn)) = _
      rw [mapM_map', mapM_ok_of (g := fun p => (p.2.map (fun q => q.2.map (g p.1 q.1))).flatten)]
      · rfl
      · intro p hp
        show (do
          let l ← (p.2.map (fun q => (q.1, Val.list q.2))).mapM (fun q => do
            let cs ← Val.iter q.2
            cs.mapM (refConnG find i p.1.repr q.1))
          return l.flatten : Except Exc (List Conn)) = _
        rw [mapM_map', mapM_ok_of (g := fun q => q.2.map (g p.1 q.1))]
        · rfl
        · intro q hq
          show q.2.mapM (refConnG find i p.1.repr q.1) = _
          refine mapM_ok_of (fun u hu => h p.1 q.1 u ?_)
          unfold under
          rw [lookup_of_mem_nodup hd.1 hp]
          dsimp only
          rw [lookup_of_mem_nodup (hd.2 _ hp) hq]
          exact hu
  refine ⟨_, hraw, fun c => ?_⟩
  simp only [List.mem_flatten, List.mem_map]
  constructor
  · rintro ⟨l, ⟨p, hp, rfl⟩, hc⟩
    simp only [List.mem_flatten, List.mem_map] at hc
    obtain ⟨l, ⟨q, hq, rfl⟩, hc⟩ := hc
    obtain ⟨u, hu, rfl⟩ := List.mem_map.1 hc
    refine ⟨p.1, q.1, u, ?_, rfl⟩
    unfold under
    rw [lookup_of_mem_nodup hd.1 hp]
    dsimp only
    rw [lookup_of_mem_nodup (hd.2 _ hp) hq]
    exact hu
  · rintro ⟨s, k, u, hu, rfl⟩
    unfold under at hu
    cases hs : o.lookup s with
    | none => rw [hs] at hu; cases hu
    | some m =>
      rw [hs] at hu
      dsimp only at hu
      cases hk : m.lookup k with
      | none => rw [hk] at hu; cases hu
      | some l =>
        rw [hk] at hu
        refine ⟨_, ⟨(s, m), mem_of_lookup hs, rfl⟩, ?_⟩
        simp only [List.mem_flatten, List.mem_map]
        exact ⟨_, ⟨(k, l), mem_of_lookup hk, rfl⟩, List.mem_map.2 ⟨u, hu, rfl⟩⟩

/-! ## Icons and colours -/

theorem icons_again {env : Env} {l : List (Option Val)} : ∀ {i : Nat} {out : List Val} {acc : List (Option Val)},
    iconsJson env i l = .ok out → acc.length = 4 → i + l.length ≤ 4 →
    ∃ ic, iconsAll env out acc = .ok ic ∧ ∀ k, (ic.getD k none).map signalGet =
      if i ≤ k ∧ (l.getD (k - i) none).isSome then (l.getD (k - i) none).map signalGet
      else (acc.getD k none).map signalGet := by
  induction l with
  | nil =>
    intro i out acc h hacc hlen
    cases h
    refine ⟨acc, rfl, fun k => ?_⟩
    rw [if_neg (by simp)]
  | cons x l ih =>
    intro i out acc h hacc hlen
    rw [List.length_cons] at hlen
    cases x with
    | none =>
      rw [iconsJson] at h
      obtain ⟨ic, h1, h2⟩ := ih h hacc (by omega)
      refine ⟨ic, h1, fun k => ?_⟩
      rw [h2 k]
      by_cases hk : k = i
      · subst hk
        rw [if_neg (by omega), if_neg (by simp)]
      · by_cases hk' : i ≤ k
        · obtain ⟨m, rfl⟩ : ∃ m, k = i + 1 + m := ⟨k - (i + 1), by omega⟩
          have e1 : i + 1 + m - (i + 1) = m := by omega
          have e2 : i + 1 + m - i = m + 1 := by omega
          rw [e1, e2]
          simp only [List.getD_cons_succ, hk', true_and, show i + 1 ≤ i + 1 + m by omega]
        · rw [if_neg (by omega), if_neg (by omega)]
    | some x =>
      rw [iconsJson] at h
      simp only [bind_eq_ok, pure_eq_ok, Except.ok.injEq] at h
      obtain ⟨j, hj, rest, hrest, rfl⟩ := h
      obtain ⟨n, hn⟩ : ∃ n, signalGet x = .str n := by
        rcases signalGet_cases x with hx | ⟨z, hx⟩ | ⟨t, hx⟩
        · rw [hx] at hj; cases hj
        · rw [hx] at hj; cases hj
        · exact ⟨t, hx⟩
      rw [hn] at hj
      have hs := signalJson_again (env := env) (s := n) hj
      obtain ⟨ic, h1, h2⟩ := ih (acc := acc.set i (some (.str n))) hrest (by simpa using hacc) (by omega)
      refine ⟨ic, ?_, fun k => ?_⟩
      · rw [iconsAll]
        show (do
          let s ← signalSet env j
          let acc ← setPy acc (((i : Int) + 1) - 1) (some s)
          iconsAll env rest acc : Except Exc (List (Option Val))) = _
        rw [hs]
        have hset : setPy acc (((i : Int) + 1) - 1) (some (Val.str n)) = .ok (acc.set i (some (.str n))) := by
          unfold setPy
          rw [if_pos (by omega)]
          congr 2
          omega
        rw [ok_bind, hset, ok_bind]
        exact h1
      · rw [h2 k]
        by_cases hk : k = i
        · subst hk
          rw [if_neg (by omega)]
          simp only [Nat.sub_self, List.getD_cons_zero, Nat.le_refl, Option.isSome_some, and_self, if_true,
            Option.map_some, hn]
          have : (acc.set k (some (Val.str n))).getD k none = some (.str n) := by
            rw [List.getD_eq_getElem?_getD, List.getElem?_set_self (by omega)]
            rfl
          rw [this]
          rfl
        · have hacc' : (acc.set i (some (Val.str n))).getD k none = acc.getD k none := by
            rw [List.getD_eq_getElem?_getD, List.getElem?_set_ne (Ne.symm hk), List.getD_eq_getElem?_getD]
          rw [hacc']
          by_cases hk' : i ≤ k
          · obtain ⟨m, rfl⟩ : ∃ m, k = i + 1 + m := ⟨k - (i + 1), by omega⟩
            have e1 : i + 1 + m - (i + 1) = m := by omega
            have e2 : i + 1 + m - i = m + 1 := by omega
            rw [e1, e2]
            simp only [List.getD_cons_succ, hk', true_and, show i + 1 ≤ i + 1 + m by omega]
          · rw [if_neg (by omega), if_neg (by omega)]

theorem icons_trip {env : Env} {l : List (Option Val)} {out : List Val} (h : iconsJson env 0 l = .ok out)
    (hl : l.length ≤ 4) : ∃ ic, iconsAll env out [none, none, none, none] = .ok ic ∧
      ∀ k, (ic.getD k none).map signalGet = (l.getD k none).map signalGet := by
  obtain ⟨ic, h1, h2⟩ := icons_again (acc := [none, none, none, none]) h rfl (by omega)
  refine ⟨ic, h1, fun k => ?_⟩
  rw [h2 k]
  simp only [Nat.zero_le, true_and, Nat.sub_zero]
  split
  · rfl
  · rename_i hn
    have : [none, none, none, (none : Option Val)].getD k none = none := by
      match k with
      | 0 | 1 | 2 | 3 => rfl
      | k + 4 => rfl
    rw [this]
    cases hx : l.getD k none with
    | none => rfl
    | some x => rw [hx] at hn; exact absurd rfl hn

/-- A component of a colour in range. -/
def InUnit (n : Num) : Prop := 0 ≤ n.val ∧ n.val ≤ 1

theorem clamp_inUnit {n : Num} (h : InUnit n) : (Color.clamp n).val = n.val := by
  rw [Color.clamp_val]
  unfold Color.nearest
  have := h.1
  have := h.2
  split
  · grind
  · split <;> grind

theorem color_trip {c : Color} (h : InUnit c.r ∧ InUnit c.g ∧ InUnit c.b ∧ InUnit c.a) :
    ∃ c', Color.ofVal c.toJson = .ok c' ∧ SameColor c c' :=
  ⟨Color.new c.r c.g c.b c.a, rfl, clamp_inUnit h.1, clamp_inUnit h.2.1, clamp_inUnit h.2.2.1, clamp_inUnit h.2.2.2⟩

/-! ## Entities -/

theorem lookup_settings {d : Dict} {k : String} (h1 : k ≠ "entity_number") (h2 : k ≠ "connections") :
    List.lookup k (entitySettings d) = List.lookup k d := by
  unfold entitySettings
  induction d with
  | nil => rfl
  | cons p d ih =>
    obtain ⟨l, x⟩ := p
    rw [List.filter_cons]
    split
    · rw [lookup_cons_if, lookup_cons_if, ih]
    · rename_i hn
      rw [ih, lookup_cons_if, if_neg]
      rintro rfl
      exact hn (by simp [h1, h2])

theorem Spec.Reloadable.joined {w : World} {b : BpId} (hr : Reloadable w b) : ∀ c ∈ (w.bp b).conns, c.joined := by
  intro c hc
  obtain ⟨r, -, s, -, h1, h2, -⟩ := hr.wires c hc
  exact ⟨by rw [h1]; simp, by rw [h2]; simp⟩

theorem Spec.Reloadable.ends {w : World} {b : BpId} (hr : Reloadable w b) :
    ∀ c ∈ (w.bp b).conns, ∀ s, c.fromE = some s ∨ c.toE = some s → ∃ n, (w.heap s).auto = some n := by
  intro c hc s h
  obtain ⟨r, hr1, t, ht1, h1, h2, -⟩ := hr.wires c hc
  rcases h with h | h
  · rw [h1] at h; cases h; exact hr.numbered _ hr1
  · rw [h2] at h; cases h; exact hr.numbered _ ht1

/-- What an import makes of one exported entity. -/
structure Again (env : Env) (layer : Option BpId) (e : Entity) (c : Option Val) (e' : Entity) : Prop where
  layer : e'.layer = layer
  name : e'.name = e.name
  pos : e'.pos = e.pos
  number : e'.number = e.auto
  raw : e'.raw = c.getD .none
  rest : ∀ obj, e'.emitRest env obj = e.emitRest env obj

/-- The entities of the blueprint have the classes that a blueprint with the custom mixins `C` gives them. -/
def Fitting (C : Custom) (w : World) (b : BpId) : Prop := ∀ r ∈ (w.bp b).objs, ∃ cs, SolidIn cs w.env (w.heap r) ∧
  ∀ data ty, Dict.get? w.env.entities (w.heap r).name = some data → data.subscript "type" = .ok (.str ty) →
    (C.lookup ty).getD [] = cs

theorem Spec.SteadyRun.fitting {env : Env} {w : World} (hw : SteadyRun env w) (ho : Owned w) {b : BpId}
    (hr : ∀ r ∈ (w.bp b).objs, (w.heap r).strict = true) : Fitting [] w b :=
  fun r hm => ⟨[], hw.inv.2.2 r (ho.exist b r hm) (hr r hm), fun _ _ _ _ => rfl⟩

theorem entity_again {C : Custom} {w : World} {b : BpId} (hw : Fitting C w b) (ho : Owned w) (hr : Reloadable w b)
    {r : Ref} (hm : r ∈ (w.bp b).objs) {c : Option Val} {d : Dict}
    (hd : (w.heap r).emitRest w.env (baseObj (w.heap r) c) = .ok d) (layer : Option BpId) {custom : Option Custom}
    (hc : custom = some C) :
    ∃ e', Entity.new w.env custom layer d = .ok e' ∧ Again w.env layer (w.heap r) c e' := by
  subst hc
  obtain ⟨cs, hs, hcs⟩ := hw r hm
  obtain ⟨d0, w0, h0, hset⟩ := hasSettings (ho.layer b r hm) hr.joined hr.ends (settings_of_base hd)
  have hn : ReadableNames w.env (w.heap r) d := by
    have := hr.names r hm d0 w0 h0
    unfold ReadableNames at this ⊢
    rw [← lookup_settings (d := d) (k := "filters") (by decide) (by decide), ← hset,
      lookup_settings (by decide) (by decide)]
    exact this
  obtain ⟨e', h1, h2, h3, h4, h5, -, -, -, h9, -, h11, -⟩ := SolidIn.trip layer hs hd
    (fun c hx => readable_operands (hr.constants r hm c hx)) (readable_filters hn) (custom := some C) hcs
  exact ⟨e', h1, h2, h3, h4, h5, h9, h11⟩

theorem entities_again {C : Custom} {w : World} {b : BpId} (hw : Fitting C w b) (ho : Owned w) (hr : Reloadable w b)
    {ents : List Val} (hlen : ents.length = (w.bp b).objs.length)
    (h : ∀ i (hi : i < (w.bp b).objs.length), ∃ d c, ents[i]? = some (.dict d) ∧
      (w.heap (w.bp b).objs[i]).emitRest w.env (baseObj (w.heap (w.bp b).objs[i]) c) = .ok d)
    (b2 : BpId) {custom : Option Custom} (hc : custom = some C) :
    ∃ es, buildAll w.env custom b2 ents = .ok es ∧ es.length = (w.bp b).objs.length ∧
      ∀ i (hi : i < (w.bp b).objs.length) (hi' : i < es.length) d c, ents[i]? = some (.dict d) →
        (w.heap (w.bp b).objs[i]).emitRest w.env (baseObj (w.heap (w.bp b).objs[i]) c) = .ok d →
        Again w.env (some b2) (w.heap (w.bp b).objs[i]) c es[i] := by
  obtain ⟨es, hes⟩ : ∃ es, buildAll w.env custom b2 ents = .ok es := by
    refine mapM_except_ok (fun v hv => ?_)
    obtain ⟨i, hi, rfl⟩ := List.mem_iff_getElem.1 hv
    obtain ⟨d, c, h1, h2⟩ := h i (by omega)
    rw [List.getElem?_eq_getElem hi] at h1
    rw [Option.some.inj h1]
    obtain ⟨e', he', -⟩ := entity_again hw ho hr (List.getElem_mem _) h2 (some b2) hc
    exact ⟨e', he'⟩
  obtain ⟨h1, h2⟩ := buildAll_get hes
  refine ⟨es, hes, by omega, fun i hi hi' d c hd hemit => ?_⟩
  obtain ⟨kw, hk, he⟩ := h2 i (by omega) hi'
  rw [List.getElem?_eq_getElem (by omega), hk] at hd
  cases hd
  obtain ⟨e', he', ha⟩ := entity_again hw ho hr (List.getElem_mem hi) hemit (some b2) hc
  rw [he] at he'
  cases he'
  exact ha

/-! ## Ids -/

theorem idEq_auto (n m : Int) : idEq (some n) (autoVal (some m)) = decide (n = m) := by
  show Num.eq (.int m) (.int n) = _
  simp [Num.eq, Num.val, eq_comm]

theorem findIdx_auto {vals : List Entity} {ns : List Int} (h : vals.map (·.number) = ns.map some) (hn : ns.Nodup)
    {j : Nat} (hj : j < ns.length) : findIdx vals (autoVal (some ns[j])) = some j := by
  unfold findIdx
  have hl : vals.length = ns.length := by simpa using congrArg List.length h
  have hnum : ∀ i (hi : i < vals.length), vals[i].number = some (ns[i]'(by omega)) := by
    intro i hi
    have := List.getElem_of_eq h (i := i) (by simpa using hi)
    simpa using this
  rw [List.findIdx?_eq_some_iff_getElem]
  refine ⟨by omega, ?_, fun i hi => ?_⟩
  · rw [hnum j (by omega), idEq_auto]; simp
  · rw [hnum i (by omega), idEq_auto]
    have : ns[i]'(by omega) ≠ ns[j] := by
      intro e
      have := (List.nodup_iff_injective_getElem.1 hn) (a₁ := ⟨i, by omega⟩) (a₂ := ⟨j, hj⟩) e
      simp only [Fin.mk.injEq] at this
      omega
    simp [this]

end Verif
