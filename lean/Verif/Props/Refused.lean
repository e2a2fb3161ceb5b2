import Verif.Proofs.Refused
import Verif.Props.Accept
/-!
# What a refused import leaves behind (C89)
-/
set_option autoImplicit false

namespace Verif
open Spec

/-- An import, refused or not, takes no entity out of any blueprint and changes none but for its number. -/
theorem C89_kept (b : BpId) (data : Val) (w : World) : Kept w (load b data w).2 := Keeping.load b data w

/-- Data that are no object change nothing. -/
theorem C89_no_object {b : BpId} {data : Val} {w : World} (h : ∀ d, ¬ Content data d) :
    ∃ x, load b data w = (.error x, w) := by
  unfold load
  rw [M.bind_eq, M.lift_eq]
  cases hu : unwrapData data with
  | error x => exact ⟨x, rfl⟩
  | ok d => exact absurd (content_iff.1 hu) (h d)

/-- C89, what holds of it: if an entity is the first thing to be refused, the ones before it have been put at the end of
the blueprint as `make` would have made them, in the order of the data and not yet sorted; the wires, the tiles, the
schedules, all other entities and all other blueprints are as they were, while the label, the icons and the version are
the new ones. Missing: that the blueprint is as it was (`C89_false`). -/
theorem C89_entity_partial {w : World} {b : BpId} {data : Val} {d : Dict} {icons pre post : List Val} {v : Val}
    (hd : Content data d) (hcol : ∀ c, List.lookup "label_color" d = some c → c ≠ .none → ColorOk c)
    (hi : SeriesAt d "icons" icons) (hicons : ∀ u ∈ icons, IconOk w.env u)
    (hl : List.lookup "entities" d = some (.list (pre ++ v :: post)))
    (hpre : ∀ u ∈ pre, ∃ kw, u = .dict kw ∧ ∃ r, (layerMake b kw w).1 = .ok r)
    (hv : ∀ kw, v = .dict kw → ¬ ∃ r, (layerMake b kw w).1 = .ok r) :
    ∃ x w', load b data w = (.error x, w') ∧
      (w'.bp b).objs = (w.bp b).objs ++ List.range' w.next pre.length ∧
      (∀ i kw, pre[i]? = some (.dict kw) → ∃ r w1, layerMake b kw w = (.ok r, w1) ∧
        SameButNumber (w'.heap (w.next + i)) (w1.heap r)) ∧
      (w'.bp b).conns = (w.bp b).conns ∧ (w'.bp b).tiles = (w.bp b).tiles ∧ (w'.bp b).schedules = (w.bp b).schedules ∧
      (w'.bp b).label = (List.lookup "label" d).getD .none ∧ (w'.bp b).version = (List.lookup "version" d).getD (.int 0) ∧
      (∀ s, s < w.next → w'.heap s = w.heap s) ∧ ∀ c, c ≠ b → w'.bp c = w.bp c := by
  obtain ⟨col, hcol⟩ := (colorAfter_iff (old := (w.bp b).labelColor)).2 hcol
  obtain ⟨ic, hic⟩ := (iconsAll_iff (acc := [none, none, none, none]) rfl).2 hicons
  have hiv := (seriesAt_iff fun u hu => by
    obtain ⟨d, -, -, h, -⟩ := hicons u hu
    exact ⟨d, h⟩).2 hi
  have hhead := loadHead_ok.2 ⟨col, icons, ic, hcol, hiv, hic, rfl⟩
  have hcust : (w.setBp b ((w.bp b).withHead d col ic)).customOf (some b) = w.customOf (some b) := by
    rw [customOf_setBp]
    rfl
  obtain ⟨es, hes⟩ := (buildAll_iff (env := w.env) (custom := w.customOf (some b)) (b := b) (l := pre)).2 fun u hu => by
    obtain ⟨kw, hk, hm⟩ := hpre u hu
    exact ⟨kw, hk, layerMake_iff.1 hm⟩
  obtain ⟨hlen, hget⟩ := buildAll_get hes
  obtain ⟨x, hx⟩ := forEach_refused (w := w.setBp b ((w.bp b).withHead d col ic)) (b := b) (v := v) (post := post)
    (by rw [hcust]; exact hes) (fun kw e hk he => hv kw hk (layerMake_iff.2 ⟨e, by rwa [hcust] at he⟩))
  have hent : Dict.getD d "entities" (.list []) = .list (pre ++ v :: post) := by
    unfold Dict.getD
    rw [show Dict.get? d "entities" = _ from hl]
    rfl
  refine ⟨x, (w.setBp b ((w.bp b).withHead d col ic)).pushAll b es, ?_, ?_, ?_, ?_⟩
  · rw [load_parts, M.bind_eq, M.lift_eq, content_iff.2 hd]
    dsimp only
    rw [M.bind_ok hhead, M.bind_eq]
    unfold loadBody
    rw [M.bind_eq, M.lift_eq, hent]
    dsimp only [Val.iter]
    rw [M.bind_eq, hx]
  · rw [pushAll_bp_self, setBp_bp_self, ← hlen]
    rfl
  · intro i kw hik
    have hi' : i < pre.length := (List.getElem?_eq_some_iff.1 hik).1
    have hi2 : i < es.length := by rw [hlen]; exact hi'
    obtain ⟨kw', hk, hne⟩ := hget i hi' hi2
    rw [List.getElem?_eq_getElem hi', hk] at hik
    cases hik
    obtain ⟨r, hr⟩ := layerMake_iff.2 ⟨_, hne⟩
    obtain ⟨e, n, he, hh⟩ := layerMake_new (w' := (layerMake b kw w).2) (Prod.ext hr rfl)
    rw [hne] at he
    cases he
    refine ⟨r, _, Prod.ext hr rfl, ?_⟩
    rw [hh]
    rw [show w.next = (w.setBp b ((w.bp b).withHead d col ic)).next from rfl, pushAll_heap_new _ _ _ hi2]
    rfl
  · rw [pushAll_bp_self, setBp_bp_self]
    refine ⟨rfl, rfl, rfl, rfl, rfl, fun s hs => ?_, fun c hc => ?_⟩
    · exact pushAll_heap_old (w.setBp b ((w.bp b).withHead d col ic)) b es hs
    · rw [pushAll_bp_other _ _ hc, setBp_bp, if_neg hc]

/-- C89, what holds of it: a refused import leaves the schedules of all blueprints as they were. -/
theorem C89_schedules_partial {b : BpId} {data : Val} {w w' : World} {x : Exc} (h : load b data w = (.error x, w')) (c : BpId) :
    (w'.bp c).schedules = (w.bp c).schedules := schedules_load b data w x w' h c

/-- C89, what holds of it: if the colour of the label or an icon is refused, nothing but label, colour, item, version and
icons can have changed. -/
theorem C89_head_partial {w : World} {b : BpId} {data : Val} {d : Dict} (hd : Content data d)
    (h : ¬ ((∀ c, List.lookup "label_color" d = some c → c ≠ .none → ColorOk c) ∧
      ∃ icons, SeriesAt d "icons" icons ∧ ∀ v ∈ icons, IconOk w.env v)) :
    ∃ x w', load b data w = (.error x, w') ∧ w'.heap = w.heap ∧ (w'.bp b).objs = (w.bp b).objs ∧
      (w'.bp b).conns = (w.bp b).conns ∧ (w'.bp b).tiles = (w.bp b).tiles ∧ (w'.bp b).schedules = (w.bp b).schedules ∧
      ∀ c, c ≠ b → w'.bp c = w.bp c := by
  obtain ⟨a1, -, a3, a4, a5, a6, a7⟩ := headOnly_loadHead b d w
  cases hh : loadHead b d w with
  | mk r w' =>
    rw [hh] at a1 a3 a4 a5 a6 a7
    cases r with
    | ok u =>
      refine absurd ?_ h
      obtain ⟨col, iv, ic, h1, h2, h3, -⟩ := loadHead_ok.1 hh
      have hicons := (iconsAll_iff rfl).1 ⟨_, h3⟩
      exact ⟨colorAfter_iff.1 ⟨_, h1⟩, iv, (seriesAt_iff fun u hu => by
        obtain ⟨d, -, -, h, -⟩ := hicons u hu
        exact ⟨d, h⟩).1 h2, hicons⟩
    | error x =>
      refine ⟨x, w', ?_, a1, a4, a5, a6, a7, a3⟩
      rw [load_parts, M.bind_eq, M.lift_eq, content_iff.2 hd]
      dsimp only
      rw [M.bind_eq, hh]

/-- C89, what holds of it: if all entities are good, they are all in the blueprint, in order and numbered, even if a wire,
a tile or a schedule is refused then. -/
theorem C89_rest_partial {env : Env} {w : World} (h : Reachable env w) {b : BpId} {data : Val} {d : Dict} {icons l : List Val}
    (hd : Content data d) (hcol : ∀ c, List.lookup "label_color" d = some c → c ≠ .none → ColorOk c)
    (hi : SeriesAt d "icons" icons) (hicons : ∀ u ∈ icons, IconOk w.env u) (hl : SeriesAt d "entities" l)
    (hents : ∀ u ∈ l, ∃ kw, u = .dict kw ∧ ∃ r, (layerMake b kw w).1 = .ok r) :
    InOrder (load b data w).2 b ((w.bp b).objs ++ List.range' w.next l.length) := by
  obtain ⟨col, hcol⟩ := (colorAfter_iff (old := (w.bp b).labelColor)).2 hcol
  obtain ⟨ic, hic⟩ := (iconsAll_iff (acc := [none, none, none, none]) rfl).2 hicons
  have hiv := (seriesAt_iff fun u hu => by
    obtain ⟨d, -, -, h, -⟩ := hicons u hu
    exact ⟨d, h⟩).2 hi
  have hlv := (seriesAt_iff fun u hu => by
    obtain ⟨kw, h, -⟩ := hents u hu
    exact ⟨kw, h⟩).2 hl
  have hhead := loadHead_ok.2 ⟨col, icons, ic, hcol, hiv, hic, rfl⟩
  have hcust : (w.setBp b ((w.bp b).withHead d col ic)).customOf (some b) = w.customOf (some b) := by
    rw [customOf_setBp]
    rfl
  obtain ⟨es, hes⟩ := (buildAll_iff (env := w.env) (custom := w.customOf (some b)) (b := b) (l := l)).2 fun u hu => by
    obtain ⟨kw, hk, hm⟩ := hents u hu
    exact ⟨kw, hk, layerMake_iff.1 hm⟩
  have hlen := (buildAll_get hes).1
  rw [load_rest (content_iff.2 hd) hhead hlv (by rw [hcust]; exact hes)]
  obtain ⟨f1, f2⟩ := fixed_rest b d (((w.setBp b ((w.bp b).withHead d col ic)).pushAll b es).sort b)
  have hb := base_inOrder w b d col ic es h.owned
  rw [hlen] at hb
  obtain ⟨b1, b2, b3, b4⟩ := hb
  unfold World.base at b1 b2 b3 b4
  constructor
  · rw [f2]; exact b1
  · rw [f1, f2]; exact b2
  · rw [f1, f2]; exact b3
  · simp only [f1, f2]; exact b4

namespace Sample

/-- A belt, something that is no entity, and another belt. -/
def badSecond : Dict := [("label", .str "new"), ("entities", .list [.dict (ent "belt" 3 4), .dict (ent "unknown" 1 2),
  .dict (ent "belt" 5 6)])]

end Sample

/-- C89 is false: the belt before the refused entity and the label stay. -/
theorem C89_false : ¬ RefusedKeeps := by
  intro h
  have := h Sample.env (World.init Sample.env) 0 (.dict Sample.badSecond) .init (by decide +kernel)
  have := congrArg (fun p => p.objs.length) this
  revert this
  decide +kernel

/-- The blueprint of the witness meets the hypotheses of the theorems. -/
example : Content (.dict Sample.badSecond) Sample.badSecond ∧ List.lookup "label_color" Sample.badSecond = none ∧
    SeriesAt Sample.badSecond "icons" [] ∧
    List.lookup "entities" Sample.badSecond = some (.list ([.dict (Sample.ent "belt" 3 4)] ++
      .dict (Sample.ent "unknown" 1 2) :: [.dict (Sample.ent "belt" 5 6)])) ∧
    (layerMake 0 (Sample.ent "belt" 3 4) (World.init Sample.env)).1 = .ok 0 ∧
    (layerMake 0 (Sample.ent "unknown" 1 2) (World.init Sample.env)).1 = .error .unknownEntity :=
  ⟨.bare _ rfl, rfl, .inl ⟨rfl, rfl⟩, rfl, by decide +kernel, by decide +kernel⟩

/-- An icon in a fifth slot is refused. -/
example : Content (.dict [("icons", .list [.dict [("signal", .none), ("index", .int 5)]])])
      [("icons", .list [.dict [("signal", .none), ("index", .int 5)]])] ∧
    ¬ ∃ icons, SeriesAt [("icons", .list [.dict [("signal", .none), ("index", .int 5)]])] "icons" icons ∧
      ∀ v ∈ icons, IconOk Sample.env v := by
  refine ⟨.bare _ rfl, ?_⟩
  rintro ⟨icons, ⟨h, -⟩ | ⟨v, h, h' | ⟨-, h' | h'⟩⟩, hi⟩
  · cases h
  · cases h
    cases h'
    obtain ⟨d, s, i, e1, e2, -, e3, ⟨z, rfl, -, hz⟩ | ⟨t, ht⟩⟩ := hi _ (.head _)
    · cases e1
      cases e3
      omega
    · cases e1
      cases e3
      cases ht
  all_goals
    cases h
    cases h'

/-- A wire that leads nowhere is refused after both belts are in. -/
example : (load 0 (.dict [("entities", .list [.dict (Sample.ent "belt" 3 4 ++ [("connections", .dict [("1", .dict [("red",
      .list [.dict [("entity_id", .int 9)]])])])]), .dict (Sample.ent "belt" 1 2)])]) (World.init Sample.env)).1 ≠ .ok () ∧
    (layerMake 0 (Sample.ent "belt" 3 4 ++ [("connections", .dict [("1", .dict [("red",
      .list [.dict [("entity_id", .int 9)]])])])]) (World.init Sample.env)).1 = .ok 0 ∧
    (layerMake 0 (Sample.ent "belt" 1 2) (World.init Sample.env)).1 = .ok 0 := by
  decide +kernel

/-- A list is no object. -/
example : ∀ d, ¬ Content (.list []) d := by
  intro d h
  cases h

end Verif
