import Verif.Spec.MoreTables
import Verif.Proofs.Dict
import Verif.Proofs.SettableEntity
import Verif.Proofs.Residue
import Verif.Proofs.LoadBase
/-!
# Helper lemmas: what is good remains good with more prototype data
-/
set_option autoImplicit false

namespace Verif
open Spec

theorem Given.mono {d : Dict} {k : String} {P Q : Val → Prop} (h : ∀ v, P v → Q v) (hp : Given d k P) : Given d k Q :=
  fun v hv => h v (hp v hv)

theorem Needed.mono {d : Dict} {k : String} {P Q : Val → Prop} (h : ∀ v, P v → Q v) : Needed d k P → Needed d k Q :=
  fun ⟨v, hv, hp⟩ => ⟨v, hv, h v hp⟩

theorem OrNull.mono {P Q : Val → Prop} (h : ∀ v, P v → Q v) (v : Val) : OrNull P v → OrNull Q v
  | .inl e => .inl e
  | .inr e => .inr (h v e)

theorem Having.mono {P Q : Dict → Prop} (h : ∀ d, P d → Q d) (v : Val) : Having P v → Having Q v :=
  fun ⟨d, e, hp⟩ => ⟨d, e, h d hp⟩

theorem Each.mono {P Q : Dict → Prop} (h : ∀ d, P d → Q d) (v : Val) : Each P v → Each Q v :=
  fun ⟨l, e, hp⟩ => ⟨l, e, fun u hu => Having.mono h u (hp u hu)⟩

section
variable {env env' : Env} (h : Extends env env')
include h

theorem signalOk_mono (v : Val) : SignalOk env v → SignalOk env' v := by
  rintro (hz | ⟨u, hu, hn | ⟨n, e, hn⟩⟩)
  · exact .inl hz
  · exact .inr ⟨u, hu, .inl hn⟩
  · exact .inr ⟨u, hu, .inr ⟨n, e, h.signal n hn⟩⟩

theorem listed_mono (v : Val) : ListedName env v → ListedName env' v := by
  rintro ⟨s, row, e, hl, hr⟩
  exact ⟨s, row, e, by rw [h.static]; exact hl, hr⟩

theorem iconOk_mono (v : Val) : IconOk env v → IconOk env' v := by
  rintro ⟨d, s, i, e, hs, ho, hi⟩
  exact ⟨d, s, i, e, hs, signalOk_mono h s ho, hi⟩

theorem behaviour_mono {strict : Bool} {d : Dict} {m : Mx} : BehaviourOk env strict d m → BehaviourOk env' strict d m := by
  have hl := OrNull.mono (listed_mono h)
  cases m
  case Items =>
    exact Given.mono (Having.mono fun e he k x hk => (he k x hk).imp id (h.signal k))
  case Cargo =>
    exact Given.mono (OrNull.mono (Having.mono fun e => Given.mono (Each.mono fun f hf => ⟨Needed.mono hl hf.1, hf.2⟩)))
  case FilterInserter =>
    exact fun hf => ⟨Given.mono (OrNull.mono (Each.mono fun f hf => ⟨hf.1, Given.mono (signalOk_mono h) hf.2⟩)) hf.1, hf.2⟩
  case InfinityContainer =>
    exact Needed.mono (Having.mono fun e he => ⟨he.1, Needed.mono (OrNull.mono (Each.mono fun f hf =>
      ⟨hf.1, hf.2.1, Needed.mono hl hf.2.2.1, hf.2.2.2⟩)) he.2⟩)
  case Recipe =>
    refine Given.mono fun v hv => hv.imp id (OrNull.mono ?_ v)
    rintro v ⟨s, e, hs⟩
    exact ⟨s, e, h.recipe s hs⟩
  case Requester =>
    exact Given.mono (OrNull.mono (Each.mono fun f hf => ⟨Needed.mono hl hf.1, hf.2⟩))
  case Speaker =>
    exact fun hs => ⟨hs.1, Given.mono (OrNull.mono (Having.mono fun e he => ⟨he.1, he.2.1, he.2.2.1,
      Given.mono (Having.mono fun i => Given.mono hl) he.2.2.2⟩)) hs.2⟩
  case Splitter => exact fun hs => ⟨hs.1, hs.2.1, Given.mono hl hs.2.2⟩
  all_goals exact id

theorem controls_mono {d : Dict} {m : Mx} : ControlsOk env d m → ControlsOk env' d m := by
  have hs := signalOk_mono h
  unfold ControlsOk
  split
  · exact Given.mono (Each.mono fun f hf => ⟨hf.1, Given.mono hs hf.2⟩)
  · exact Given.mono (OrNull.mono (Having.mono fun e he => ⟨Given.mono hs he.1, Given.mono hs he.2.1,
      fun hn => Given.mono hs (he.2.2.1 hn), he.2.2.2⟩))
  · exact id
  · exact fun hk k hm => Given.mono hs (hk k hm)

theorem operand_mono {d : Dict} {c s : String} : OperandOk env d c s → OperandOk env' d c s := by
  rintro (⟨h1, h2, h3⟩ | ⟨h1, h2⟩)
  · exact .inl ⟨h1, signalOk_mono h _ h2, h3⟩
  · exact .inr ⟨h1, Given.mono (OrNull.mono (Having.mono fun e => Needed.mono (signalOk_mono h))) h2⟩

theorem conditions_mono {o f : String} {ops more : List String} (d : Dict) :
    ConditionsOk env o ops f more d → ConditionsOk env' o ops f more d :=
  fun ⟨h1, h2, h3, h4, h5⟩ => ⟨h1, h2, operand_mono h h3, operand_mono h h4, operand_mono h h5⟩

theorem control_mono {c : Klass} (d : Dict) : ControlOk env c d → ControlOk env' c d := by
  rintro ⟨h1, h2, h3⟩
  refine ⟨h1, h2, ?_⟩
  split
  · rename_i e
    rw [if_pos e] at h3
    exact ⟨h3.1, Needed.mono (Having.mono (conditions_mono h)) h3.2⟩
  · rename_i e
    rw [if_neg e] at h3
    split
    · rename_i e'
      rw [if_pos e'] at h3
      exact ⟨h3.1, Needed.mono (Having.mono (conditions_mono h)) h3.2⟩
    · rename_i e'
      rw [if_neg e'] at h3
      exact ⟨h3.1, fun m hm => controls_mono h (h3.2 m hm)⟩

theorem settable_mono {s : Bool} {c : Klass} {d : Dict} (hs : Settable env s c d) : Settable env' s c d where
  known := hs.known
  position := hs.position
  number := hs.number
  direction := hs.direction
  behaviours := fun m hm => behaviour_mono h (hs.behaviours m hm)
  control := Given.mono (Having.mono (control_mono h)) hs.control

theorem classOf_mono {p p' : Bp} (hp : ∀ ty, customFor p' ty = customFor p ty) {s : Bool} {name : String} {k : Klass} :
    ClassOf env p s name k → ClassOf env' p' s name k := by
  unfold ClassOf
  split
  · rintro ⟨ty, ms, h1, h2, h3⟩
    exact ⟨ty, ms, h.type name ty h1, h2, by rw [hp]; exact h3⟩
  · exact id

theorem acceptable_mono {makes makes' : Dict → Prop} (hm : ∀ kw, makes kw → makes' kw) {data : Val} :
    Acceptable env makes data → Acceptable env' makes' data := by
  rintro ⟨d, icons, ents, scheds, h1, h2, h3, h4, h5, h6, h7⟩
  refine ⟨d, icons, ents, scheds, h1, h2, h3, fun v hv => iconOk_mono h v (h4 v hv), h5, fun v hv => ?_, h7⟩
  obtain ⟨kw, e, hk, hl⟩ := h6 v hv
  exact ⟨kw, e, hm kw hk, hl⟩

end

theorem lookup_append_ne {old data : Dict} (hd : (data.map (·.1)).Nodup) {s : String} (h : List.lookup s old ≠ none) :
    List.lookup s (setAll old data) ≠ none := by
  rw [lookup_setAll hd]
  split
  · exact fun e => by cases e
  · exact h

/-! ## Exports -/

section
variable {env env' : Env} (h : StayTyped env env')
include h

theorem typed_mono {u : Val} : TypedText env u → TypedText env' u := by
  rintro ⟨n, t, h1, h2⟩
  obtain ⟨t', h'⟩ := h n t h2
  exact ⟨n, t', h1, h'⟩

theorem signalOut_mono {v : Val} : SignalOut env v → SignalOut env' v := by
  rintro ⟨u, h1, h2 | h2 | h2⟩
  · exact ⟨u, h1, .inl h2⟩
  · exact ⟨u, h1, .inr (.inl h2)⟩
  · exact ⟨u, h1, .inr (.inr (typed_mono h h2))⟩

theorem optionalOut_mono {v : Val} : OptionalOut env v → OptionalOut env' v := by
  rintro ⟨u, h1, h2 | h2 | h2 | h2⟩
  · exact ⟨u, h1, .inl h2⟩
  · exact ⟨u, h1, .inr (.inl h2)⟩
  · exact ⟨u, h1, .inr (.inr (.inl h2))⟩
  · exact ⟨u, h1, .inr (.inr (.inr (typed_mono h h2)))⟩

theorem namedOut_mono {v : Val} : NamedOut env v → NamedOut env' v :=
  fun ⟨u, h1, h2⟩ => ⟨u, h1, typed_mono h h2⟩

theorem exportableControl_mono {c : Klass} {x : Dict} (hx : ExportableControl env c x) : ExportableControl env' c x where
  signal := fun m k h1 h2 h3 h4 => signalOut_mono h (hx.signal m k h1 h2 h3 h4)
  optional := fun m k h1 h2 h3 => optionalOut_mono h (hx.optional m k h1 h2 h3)
  filters := fun h1 l h2 d h3 => namedOut_mono h (hx.filters h1 l h2 d h3)
  condition := fun h1 d h2 => ⟨signalOut_mono h (hx.condition h1 d h2).1, signalOut_mono h (hx.condition h1 d h2).2⟩
  arithmetic := fun h1 d h2 p hp u hu => signalOut_mono h (hx.arithmetic h1 d h2 p hp u hu)
  decider := fun h1 d h2 p hp u hu => signalOut_mono h (hx.decider h1 d h2 p hp u hu)

theorem exportable_mono (hs : env'.defaults = env.defaults) {c : Klass} {kw : Dict} (hx : Exportable env c kw) :
    Exportable env' c kw where
  alert := by
    intro h1 a i n h2 h3 h4
    rw [hs]
    exact hx.alert h1 a i n h2 h3 h4
  control := fun x hk => exportableControl_mono h (hx.control x hk)

end

theorem classOf_unique {env : Env} {p : Bp} {s : Bool} {name : String} {k k' : Klass} (h : ClassOf env p s name k)
    (h' : ClassOf env p s name k') : k' = k := by
  unfold ClassOf at h h'
  split at h
  · rename_i e
    rw [if_pos e] at h'
    obtain ⟨ty, ms, ⟨d, a1, a2⟩, a3, a4⟩ := h
    obtain ⟨ty', ms', ⟨d', b1, b2⟩, b3, b4⟩ := h'
    cases a1.symm.trans b1
    cases a2.symm.trans b2
    cases a3.symm.trans b3
    cases a4.symm.trans b4
    rfl
  · rename_i e
    rw [if_neg e] at h'
    rw [h, h']

theorem new_class {env : Env} {p : Bp} {s : Bool} {layer : Option BpId} {z : Dict} (hs : StrictIn z s) {e : Entity}
    (he : Entity.new env (some p.custom) layer z = .ok e) :
    ∃ name, List.lookup "name" z = some (.str name) ∧ ClassOf env p s name e.klass := by
  obtain ⟨-, -, name, pz, n, e', z3, -, -, h, hfin⟩ := Entity.new_ok.1 he
  have hse : e'.strict = s := by
    rw [← strictIn_iff.1 hs]
    obtain ⟨_, _, ⟨_, rfl⟩ | ⟨_, _, _, _, _, _, _, _, _, rfl⟩⟩ := Entity.setName_ok h <;> rfl
  obtain ⟨nm, rfl, hk⟩ := (setName_class hs).1 ⟨e', h, hse, rfl⟩
  obtain ⟨pos, dir, cb, a, -, -, -, -, rfl⟩ := Entity.finish_ok.1 hfin
  exact ⟨nm, z3, hk⟩

theorem load_class {w w1 : World} (ho : Owned w) {b : BpId} {data : Val} {d : Dict} {l : List Val} (hd : Content data d)
    (hl : ListAt d "entities" l) (hw : load b data w = (.ok (), w1)) {i : Nat} {kw : Dict} (hi : l[i]? = some (.dict kw))
    {s : Bool} (hs : StrictIn kw s) :
    ∃ name, List.lookup "name" kw = some (.str name) ∧ ClassOf w.env (w.bp b) s name (w1.heap (w.next + i)).klass := by
  obtain ⟨d', col, iv, ic, ev, es, cs, sv, scheds, h1, h2, h3, h4, h5, h6, h7, h8, h9, h10, h11, rfl⟩ := (load_ok ho).1 hw
  cases Content.unique (content_iff.1 h1) hd
  rw [listAt_iter hl] at h5
  cases h5
  obtain ⟨k1, k2⟩ := buildAll_get h6
  obtain ⟨hlt, hget⟩ := List.getElem?_eq_some_iff.1 hi
  obtain ⟨kw', hkw, hnew⟩ := k2 i hlt (by omega)
  rw [hget] at hkw
  cases hkw
  have hsame := base_heap_new w b d col ic es (i := i) (by omega)
  obtain ⟨-, -, -, -, -, p6, -⟩ := SameButNumber.eqs hsame
  show ∃ name, _ ∧ ClassOf w.env (w.bp b) s name ((w.base b d col ic es).heap (w.next + i)).klass
  rw [p6]
  exact new_class hs hnew

end Verif
