import Verif.Proofs.Printed
import Verif.Proofs.Condition
import Verif.Props.Codec
import Verif.Props.Wires
/-!
# Property C76: printed forms
-/
set_option autoImplicit false

namespace Verif
open Spec Printed

/-- C76: the printed form of a direction names the sides towards which its unit step goes. -/
theorem C76_direction (a : Int) : ∃ s v, dirRepr (Direction.new a) = .ok ("<Direction (".toList ++ s.toList ++ ")>".toList) ∧
    (Direction.new a).vector = some v ∧ NamesStep s v.x.val v.y.val := by
  rcases dir_cases a with h | h | h | h | h | h | h | h <;> rw [h]
  · exact ⟨"Up", _, rfl, rfl, by unfold NamesStep; decide +kernel⟩
  · exact ⟨"Up-Right", _, rfl, rfl, by unfold NamesStep; decide +kernel⟩
  · exact ⟨"Right", _, rfl, rfl, by unfold NamesStep; decide +kernel⟩
  · exact ⟨"Down-Right", _, rfl, rfl, by unfold NamesStep; decide +kernel⟩
  · exact ⟨"Down", _, rfl, rfl, by unfold NamesStep; decide +kernel⟩
  · exact ⟨"Down-Left", _, rfl, rfl, by unfold NamesStep; decide +kernel⟩
  · exact ⟨"Left", _, rfl, rfl, by unfold NamesStep; decide +kernel⟩
  · exact ⟨"Up-Left", _, rfl, rfl, by unfold NamesStep; decide +kernel⟩

/-- C76: vectors with the same printed form are the same, as far as floats have exact texts. -/
theorem C76_vector {f : FloatText} {v w : Vec} (hx : PrintedExactly f v.x) (hy : PrintedExactly f v.y) (hx' : PrintedExactly f w.x)
    (hy' : PrintedExactly f w.y) : vec f v = vec f w ↔ v = w :=
  ⟨fun h => (vec_inj hx hy hx' hy' (a := []) (b := []) h).2, fun h => by rw [h]⟩

/-- C76: … and so are colours. -/
theorem C76_color {f : FloatText} {c d : Color} (hc : ∀ n ∈ [c.r, c.g, c.b, c.a], PrintedExactly f n)
    (hd : ∀ n ∈ [d.r, d.g, d.b, d.a], PrintedExactly f n) : color f c = color f d ↔ c = d := by
  refine ⟨fun h => ?_, fun h => by rw [h]⟩
  simp only [List.mem_cons, List.not_mem_nil, or_false, forall_eq_or_imp, forall_eq] at hc hd
  obtain ⟨hcr, hcg, hcb, hca⟩ := hc
  obtain ⟨hdr, hdg, hdb, hda⟩ := hd
  have e : ∀ c : Color, color f c = ((("<Color (r".toList ++ ':' :: (num f c.r ++ ", g".toList)) ++
      ':' :: (num f c.g ++ ", b".toList)) ++ ':' :: (num f c.b ++ ", a".toList)) ++ ':' :: num f c.a ++ ")>".toList := by
    intro c; unfold color; simp
  rw [e, e] at h
  have h1 := List.append_cancel_right h
  have hp : ∀ {n : Num} {t : List Char}, ':' ∉ t → PrintedExactly f n → ':' ∉ num f n ++ t := by
    intro n t ht hn hm
    rcases List.mem_append.1 hm with hm | hm
    · exact num_not hn colon_not hm
    · exact ht hm
  obtain ⟨h2, ha⟩ := split_last (num_not hca colon_not) (num_not hda colon_not) h1
  obtain ⟨h3, hb⟩ := split_last (hp (by decide) hcb) (hp (by decide) hdb) h2
  obtain ⟨h4, hg⟩ := split_last (hp (by decide) hcg) (hp (by decide) hdg) h3
  obtain ⟨-, hr⟩ := split_last (hp (by decide) hcr) (hp (by decide) hdr) h4
  have ha := num_inj hca hda ha
  have hb := num_inj hcb hdb (List.append_cancel_right hb)
  have hg := num_inj hcg hdg (List.append_cancel_right hg)
  have hr := num_inj hcr hdr (List.append_cancel_right hr)
  cases c; cases d
  simp only [Color.mk.injEq]
  exact ⟨hr, hg, hb, ha⟩

/-- C76: the printed form of an entity shows name, position and direction, whatever characters are in the name. -/
theorem C76_entity {f : FloatText} {e e' : Entity} (hx : PrintedExactly f e.pos.x) (hy : PrintedExactly f e.pos.y)
    (hx' : PrintedExactly f e'.pos.x) (hy' : PrintedExactly f e'.pos.y) :
    entRepr f e = entRepr f e' ↔ e.name = e'.name ∧ e.pos = e'.pos ∧ e.dir = e'.dir := by
  refine ⟨fun h => ?_, fun ⟨h1, h2, h3⟩ => by unfold entRepr; rw [h1, h2, h3]⟩
  have e0 : ∀ e : Entity, entRepr f e = (("<Entity (name: \"".toList ++ e.name.toList ++ "\", position: ".toList ++
      vec f e.pos) ++ ", direction:".toList) ++ ' ' :: num f (.int e.dir.n) ++ ")>".toList := by
    intro e; unfold entRepr dirStr; simp [num]
  rw [e0, e0] at h
  have h1 := List.append_cancel_right h
  obtain ⟨h2, hd⟩ := split_last (num_not (f := f) (n := .int _) trivial blank_not)
    (num_not (f := f) (n := .int _) trivial blank_not) h1
  obtain ⟨h3, hv⟩ := vec_inj hx hy hx' hy' (List.append_cancel_right h2)
  have h4 := List.append_cancel_left (List.append_cancel_right h3)
  have hd := num_inj (f := f) (n := .int e.dir.n) (m := .int e'.dir.n) trivial trivial hd
  injection hd with hd
  refine ⟨String.toList_inj.1 h4, hv, ?_⟩
  cases hh : e.dir; cases hh' : e'.dir
  rw [hh, hh'] at hd
  exact congrArg _ hd

/-- C76: the short form of an entity shows its name. -/
theorem C76_entity_str (e e' : Entity) : entStr e = entStr e' ↔ e.name = e'.name := by
  unfold entStr
  constructor
  · intro h
    exact String.toList_inj.1 (List.append_cancel_left (List.append_cancel_right h))
  · intro h; rw [h]

/-- C76: the printed form of a wire shows no more of its ends than their names … -/
theorem C76_wire {w : World} {c d : Conn} (hc : c.color = d.color) (hs : c.fromSide = d.fromSide)
    (ht : c.toSide = d.toSide) (hf : c.fromE.map (fun r => (w.heap r).name) = d.fromE.map (fun r => (w.heap r).name))
    (hg : c.toE.map (fun r => (w.heap r).name) = d.toE.map (fun r => (w.heap r).name)) :
    conn w c = conn w d := by
  have he : ∀ {p q : Option Ref}, p.map (fun r => (w.heap r).name) = q.map (fun r => (w.heap r).name) →
      endStr w p = endStr w q := by
    intro p q h
    cases p <;> cases q
    · rfl
    · cases h
    · cases h
    · injection h with h
      exact (C76_entity_str _ _).2 h
  unfold conn
  rw [hc, hs, ht, he hf, he hg]

/-- C76: … so different wires of one blueprint may be printed alike: the property is false for wires. -/
theorem C76_wire_false : ∃ w, Reachable Sample.env w ∧ ∃ c ∈ (w.bp 0).conns, ∃ d ∈ (w.bp 0).conns,
    ¬ Equal c d ∧ conn w c = conn w d := by
  refine ⟨_, .step (.connect 1 (some 2) (.int 1) (.int 1) "red")
    (.step (.connect 0 (some 1) (.int 1) (.int 1) "red") Sample.belts_reachable
      ⟨by decide +kernel, by decide +kernel⟩) ⟨by decide +kernel, by decide +kernel⟩, ⟨some 0, some 1, 1, 1, "red"⟩,
    by decide +kernel, ⟨some 1, some 2, 1, 1, "red"⟩, by decide +kernel, ?_, by decide +kernel⟩
  rw [← C24_equal]
  decide

/-- C76: a signal id is printed with name and type, unless its name is `None`: then printing raises. -/
theorem C76_signal {env : Env} (ht : env.defaults = defaultTable) {data n : Val} (hn : signalIdNew env data = .ok n) :
    (n = .none ∧ signalId env n = .error .keyError) ∨
    ∃ s t, n = .str s ∧ (s, t) ∈ defaultNames ∧
      signalId env n = .ok ("<SignalID (".toList ++ s.toList ++ ", type: ".toList ++ t.toList ++ ")>".toList) := by
  unfold signalIdNew at hn
  rw [bind_eq_ok] at hn
  obtain ⟨v, -, hn⟩ := hn
  rcases nameStr_stored hn with rfl | ⟨s, rfl, hs⟩
  · exact .inl ⟨rfl, rfl⟩
  · obtain ⟨t, hm, hl⟩ := nameStr_default ht hs
    refine .inr ⟨s, t, rfl, hm, ?_⟩
    unfold signalId
    have hg : Dict.getItem env.defaults s = .ok (.dict [("type", .str t)]) := by
      unfold Dict.getItem
      rw [show Dict.get? env.defaults s = _ from hl]
    dsimp only
    rw [hg]
    rfl

/-- C76: a signal id without name can be made, but not printed. -/
theorem C76_signal_false (env : Env) : signalIdNew env (.dict [("name", .none)]) = .ok .none ∧
    signalId env .none = .error .keyError := ⟨rfl, rfl⟩

/-! ### The hypotheses can be met -/

example : PrintedExactly Sample.rt.float (.int 3) ∧ PrintedExactly Sample.rt.float (.flt (1/4)) :=
  ⟨trivial, Sample.rt_quarter⟩

example : vec Sample.rt.float ⟨.int 3, .flt (1/4)⟩ = "<Vector (3, 0.25)>".toList := by decide +kernel

example : entRepr Sample.rt.float (Sample.belts.heap 0) =
    "<Entity (name: \"belt\", position: <Vector (7, 0)>, direction: 0)>".toList := by decide +kernel

example : dirRepr (Direction.new 11) = .ok "<Direction (Down-Right)>".toList ∧
    dirStr (Direction.new 11) = "3".toList := ⟨by decide +kernel, by decide +kernel⟩

example : signalId { Sample.env with defaults := defaultTable } (.str "rocket") =
    .ok "<SignalID (rocket, type: item)>".toList := by decide +kernel

end Verif
