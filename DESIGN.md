# Formal model of py_factorio_blueprints (Lean 4)

The source under study is `/repo` (commit as given; it is read as text and never run).  Everything below is
about a *model* of that source; the tie between the two is the line references in the doc comments of every
definition in `lean/Verif/Model`, and the simplifications listed in section 4.

Contents: 1 shape of the model · 2 how each property is proved · 3 trusted base · 4 what is modelled, what is
simplified · 5 what is not modelled · 6 where code and property disagree · 7 wrong programs.

## 1. Shape of the model

The model is *shallow*: each Python function becomes a total Lean function, branch by branch.  Python exceptions
are values of `Exc`; functions that mutate objects have type `M α = World → Except Exc α × World` and return the
new state **also on the exception path**, so that partial effects of a failing call are visible.  `World` holds
the prototype tables (`Env`), a heap of entities with object identity (`Ref`), and any number of blueprints
(`BpId`).  `Op` lists the public calls; `Reachable env w` holds of every world reached from the empty one by any
sequence of calls (assignment of attributes included), including calls that raise midway; arguments are objects that
exist and colours that `Color` can hold.  `Exc.unmodelled` marks inputs outside the model; no
theorem treats it as a success.

| Lean module | models |
|---|---|
| `Py/Num`, `Py/Val`, `Py/Text` | `int`/`float` numbers, JSON values and ordered dicts, `str`/`int()`/`float()` conversions |
| `Py/Round`, `Py/Repr` | rounding to binary64; `float.__repr__` |
| `Py/Sort` | stable `list.sort(key=…)` |
| `Py/C3` | C3 method resolution order |
| `Py/Base64`, `Py/Json` | `base64.b64encode/b64decode` (non-validating), `json.dumps/loads` on characters, UTF-8 |
| `Model/Vector`, `Direction`, `Color`, `Tile` | the value classes of `util.py` |
| `Model/Connection` | `util.Connection` |
| `Model/Env` | prototype tables; descriptors `SignalName`, `RecipeName`, `Operator`; `util.NameStr` |
| `Model/Control`, `Model/Mixins` | constructors and `to_json` of all classes of `entity_mixins.py` |
| `Model/Classes` | `ControlBehaviorMeta`, `Entity.add_mixins` and `set_mixins`, the table `entity_prototypes.py` |
| `Model/Entity` | `entity.py`: names, construction, extent, rotation, export |
| `Model/World` | `BlueprintLayer`, wires of an entity (`get_connections`, `connect`, `connections_to_json`) |
| `Model/Blueprint` | `Blueprint` and `Schedule`; `Op`, `Reachable` |
| `Model/Assign` | assigning a setting of an entity or of its control behaviour after construction: the setters of `entity_mixins.py` |
| `Model/LiveLoop` | a `for` loop over a layer (`BlueprintLayer.__iter__`) whose body changes the layer |
| `Model/Printed` | `__repr__` and `__str__` of Vector, Color, Direction, Entity, Connection and SignalID |
| `Model/Codec` | `util.encode/decode`, `to_string`, `Blueprint(string, data, …)`, `Blueprint.__eq__` |
| `Model/Condition` | `util.Condition`, `util.SignalID` (not used by the rest of the package) |
| `Model/Subclass` | prototype data set on classes derived from `Blueprint` |
| `Model/Floats` | rotation, moving, looking up and the extent again, with a rounding function; binary64 rounding |
| `Model/Residue` | what `load` leaves in the data object of the caller |
| `Model/Gatherer` | `blueprint_data_gatherer/control.lua` (the data collecting part) |
| `Model/LuaJson`, `Model/LuaParse` | `blueprint_data_gatherer/json.lua`: `json.stringify`, `json.parse` |
| `Model/LuaNumber` | `tostring` and `tonumber` of Lua on numbers |
| `Spec/*` | small specifications, independent of the helpers of the model |
| `Props/*` | the property theorems `Cnn_…`, each with a non-vacuity `example`; witnesses |
| `Proofs/*` | helper lemmas |
| `Tests/RepoTests` | the unit tests of the repository as `example`s on the model (tests of the model, not proofs) |

`Props/Sample.lean` holds the small prototype data set used by the examples.

## 2. How each property is proved

* C01–C08, C49 (values of `util.py`): case analysis and arithmetic over `Int` and exact rationals; component
  assignment histories by induction.
* C09, C10: encoder and decoder are compositions of JSON text, UTF-8, zlib, base64.  Round trip by induction on
  values and byte lists; C10 is false of the code and the failing stages are described exactly.  For the floats of
  Python (`Proofs/Repr`): 17 digits are closer to a float than half of the distance to its neighbours.
* C11, C12, C15, C16, C25, C46: invariants over all histories.  Every call is decomposed into primitive steps
  (`Prim`, `Steps` in `Proofs/World`); an invariant is checked per primitive step, so it also holds in the middle
  of a failing call.
* C13, C18, C19: specification of the stable sort (sorted, permutation, ties in order) and its uniqueness;
  `C18` and the import theorems compare blueprints through `Spec/View`, which names entities by their place.
* C54, C55, C57: invariants again (`Proofs/Tidy`); each primitive step carries what it may do (`Kind`: list, remove, move,
  …), so a step that may not list entities cannot disturb their numbers.  `RunOf P` are the histories whose calls
  satisfy `P`.
* C56: every call is shown to stay within one blueprint and its entities (`Near`, `Within` in `Proofs/Isolation`);
  that the export does not read anything else is a simulation between two worlds (`Agree`, `Blind`).
* C14, C17, C39, C40: exact descriptions by list induction.
* C20–C23: false of the code; exact description of what the code computes, witnesses, partial theorems.
* C24–C30, C47: list reasoning on wires and the exported wire dicts.  C53: the order of the listing, from the
  specification of the stable sort.
* C31, C32: which constructor raises, by induction over the mixin chain.
* C33–C35: each mixin owns a set of keys; the round trip is proved mixin by mixin (`MxTrip`, `CbTrip`), lifted
  along the method resolution order (`Trip`, `EntTrip`), then to whole blueprints (`Reload`, `ReloadAll`).  The
  invariant behind it (`SteadyRun.inv`) says that every strict entity is `Solid`: its attributes are of the shape
  its constructor leaves, whatever calls followed.
* C36: a second semantics of `load` that returns the caller's data after the call (`Model/Residue`); what is left is
  described exactly, after success and after a rejected entity.
* C37, C38, C41, C42, C43, C45, C50: direct.
* C52: the setter of a setting and the constructor of its mixin compute the same (`Proofs/AssignMake`), lifted along
  the chain of constructors, the entity, and `BlueprintLayer.add`; the same for control behaviours (`Proofs/CbPut`).
* C44, C48: C3 linearisation of the class table; finite tables compared row by row.
* C59: from the exact description of the wires after an import (C29).  C60: from C32 and the description of the class
  of an entity; the positive part lists one entity per setting.
* C58: the text is parsed by induction on the relation between Lua data and JSON values, with blanks between tokens.
* C61, C62: by the equations of the setters; the export by C31 and the lemmas of C24.  C63: two dictionaries with the same
  entries are followed through constructor and import.  C64: the import visits the connections of every entity (C29), so
  it would have to succeed on each of them.  C65: one check per row of the table ties it to the lists of
  `Spec/Types.lean`; C32 then speaks about all values.
* C66: two worlds that differ in the table of items only run alike, by composition over all calls; the parts that take
  prototype data are equal by unfolding, which `kernel_rfl` leaves to the kernel.  C69: the same method, for worlds that
  differ in the flags `strict` of the blueprints; the rest by the equations of the constructor.
* C67: from the specification of the stable sort.  C68: two worlds that differ in their wires only are followed through
  `parse_connections` (`Proofs/Reparse`).  C70: the export of the entities is followed through worlds that differ in the
  other fields of the blueprints (`Proofs/Head`).
* C71: multiples of `1/2^k` up to `2^53/2^k` are closed under the sums, differences and quarter turns of a rotation, so
  every intermediate result is left alone by the rounding; induction over the entities and over the rotations.  For the
  extent: the rounded border lies on the same side of every integer as the exact one (`SameSide`).
* C72: the parts of both exports (`export_parts`) are compared entity by entity; `emitChain_turned` shows by induction
  over the mixins that only direction and orientation can differ, `newNumber` is the renumbering, and the references are
  compared through `farEnds`, which does not mention numbers.
* C73: the text is read by induction on the value that was written, token by token; what is read is related to the value
  by `ReadBack`, from which the condition for being the same follows in both directions.

A property that is false of the code has status `partial`, a theorem `Cnn_false…` that proves the negation by a
reachable witness, and theorems (suffix `_partial` or exact descriptions) that prove what does hold.
* C74: the loop is an inductive relation (it need not end); induction on the part of the list not yet visited.
* C75: the reader of numerals is proved equal to a grammar (`Spec.Spells`) by induction on the text; C29 uses the
  grammar, not the reader.
* C79: the reader of decimal texts is proved equal to a grammar (`Spec.Decimal`); the rounding is proved to satisfy the
  definition of round-to-nearest-even over all binary64 numbers (`Spec.Rounded`), which has at most one solution.
* C76: numbers are found in a printed form from its end (they contain no blank, colon or parenthesis) and are read back
  as in C09.
* C77: the merge of resolution orders succeeds if some order without repetition contains all of them
  (`C3.linearize_total`); such an order is given explicitly.  `Klass.Full` is the invariant of classes behind it.
* C80: from C52 and C77; what `Items` hands on is followed along the chain of constructors (`initChain_behind`).  The
  round trip of C33 is proved for classes with any additional mixins (`SolidIn cs`); the classes of all types with one
  plain custom behaviour are checked row by row (`plain_good`).
  The import of whole blueprints (C35) is proved once for entities with any classes that the reading blueprint gives
  them (`Fitting`, `reload_in`); C35 and C80 are instances.
* C81: a predicate on computations (`Raises`, `RaisesM`, `Emits`) is carried through every reader and writer; the import
  is followed once for both statements (`t` says whether inputs outside the model are excluded).
* C82: `Spec/Json` is the grammar of JSON as inductive relations between values and texts, `Spec/Base64` is base64 by bits.
  Induction on the derivation (the reader accepts) and on the fuel of the reader (it accepts nothing else).
* C83: `Spec/Shown` lists the forms of all settings key by key and says what an export has to show; `mx_shown`, `cb_shown`,
  `arithmetic_shown` and `decider_shown` follow one behaviour from the given data through its attributes to its export.
* C84: composition of C13, C26, C29, C41 and C83, stated on data only: `Spec/DataWires` says which wires and schedules data
  describe, entries being addressed by their place in the list.
* C85: `Spec/Accept` says part by part which data are good; every reader of the import is shown to succeed exactly on the
  good parts, and `load_ok` puts them together.
* C86: each `__init__` of the two chains succeeds on keywords put together from two accepted sets; induction over the chains.
* C87: `Spec/Exportable` says which signals can be exported; each `to_json` is shown to succeed on the attributes that its
  `__init__` set exactly if the signals it was given can be, then as in C85.
* C88: `Spec/Settable` says setting by setting which values are good; each descriptor and each `__init__` is shown to succeed
  exactly on them, then induction over the two chains.  Inputs outside the model (`Exc.unmodelled`) count as refused, though
  the code takes some of them: coordinates that are no numbers, entities without position, names that are no texts with
  `strict` false, entity numbers that are not whole numbers, digits outside ASCII, infinite volumes.
* C89: every primitive step of the import keeps the entities (`Keeping`), also on the exception path; the state at a refused
  entity is computed from the loop over the entities.  The same for two stronger relations: the head changes nothing but the
  head (`HeadOnly`), the steps after the entities change no entity (`EntitiesFixed`).
* C90: case by case over the calls (`Op`); `Leaving` lists the kinds that change something before they raise, `C90_false` has a
  reachable witness for each.
  `C90_reads_partial`, `C90_entity_partial`, `C90_label_partial`, `C90_protos_partial`, `C90_moves_partial` and
  `C90_parse_partial` say what refused calls can have changed (for imports: C89).  `C90_skip_partial`: induction over histories.
* C91: the conditions of C85, C87 and C88 are monotone in the prototype data; the class of an entity is determined by its data;
  assignments are reduced to making the entity (C52).
* C78: induction over histories of both kinds of calls; `Inherits` decides which table a derived class sees.

## 3. Trusted base

* Lean 4.33.0's kernel, and the axioms `propext`, `Classical.choice`, `Quot.sound`.  No other axiom is used: no
  `sorry`, `native_decide` or `bv_decide`; `decide +kernel` only uses the kernel's evaluator.
* That the model reads the code correctly (sections 4, 5).
* One explicit hypothesis that occurs in theorem statements, never as an axiom: `Lossless rt.zlib` (decompress after
  compress is the identity).  Theorems about any way of writing floats have the hypothesis `ExactFloat`/`Plain`
  (`float(repr(x)) = x`, text in JSON number syntax); for the texts of Python it is a theorem (`C09_floats`).

## 4. Simplifications

* Python `float`s are exact rationals: no rounding, NaN or infinities.  `int` and `float` stay distinguishable.  C71
  proves that rotating, moving and looking up give the same with rounding when the coordinates are multiples of a
  (small) power of two, such as the halves and quarters of the game, and that extent, corners and centre do when the
  borders of the boxes are not too close to the grid.  It does not cover the corners of single entities, floor division
  and overflow.
* The text of floats and zlib are parameters (`Runtime`).  `pyFloats` (`Py/Repr`) is the text that Python writes: the
  shortest digits that are rounded to the float, of these the nearest (`C09_shortest`).
* JSON: no recursion limit, no limit on digits, no lone surrogates.  The decoder runs on fuel at least the length
  of the input.
* Dict keys are strings (JSON).  The in-memory wire dict with integer keys is modelled with their decimal text,
  which is what `json.dumps` writes; `C09_keys` relates the two.
* Data passed to `load` is a tree: no dict object occurs twice.  What `load` changes in it is modelled separately
  in `Model/Residue`.
* `entity_number` is `None` or an integer; positions are two-component vectors.
* Prototype tables are set with dicts; appending something else raises `TypeError`.  Custom mixins are lists of library mixins.
* What a control behaviour reads from its entity's class when it is made (`TYPE`, the options of `operator`) is kept in
  it; `OPERATOR` is looked up again on export (`Cb.seenBy`).  `set_mixins` and `add_mixins` take mixins of the library.
* A tile is compared by value in `tiles.remove` (Python: identity); no tile can be in the layer (C42).
* Vectors and directions are immutable values; the code never mutates a `Vector` in place after construction.
* Lua: `Model/Gatherer` gives the gathered tables as JSON values; `Spec.StandsFor` relates Lua tables to JSON values
  and C58 proves the way through `json.lua` and `json.loads`.  The text which Lua's `tostring` gives to numbers is a
  parameter, assumed exact where a number occurs, as is `tonumber`; `C58_number_iff` and `C73_number_iff` say for which
  numbers the text that Lua 5.2 writes (`%.14g`) is exact.  Strings are sequences of characters, not of bytes.
  `json.null` is an empty table without identity.  `json.parse` runs on fuel of twice the length of the text, which
  is enough for every text (`C73_ends`); the depth of Lua's stack is not modelled.
* The sign of a zero `float` is not modelled (`Vector.rotate` can give `-0.0` in Python).
* `int(text)` follows `PyLong_FromString` for ASCII texts (blanks around, a sign, single underscores between digits),
  without the limit of 4300 digits; `float(text)` follows `PyFloat_FromString`.  Outside the model (`Exc.unmodelled`) are
  non-ASCII texts and the texts of infinite floats and of not a number.
* `Exc.unmodelled` marks inputs outside the model; `C81_ordinary` gives a condition on imported data (`Spec.Ordinary`)
  under which it does not occur, and `C81_export` shows that exports never give it.

## 5. Not modelled

logging, the exception messages, `book.py` (a stub), the entries of
`defaultentities.py` other than `type` (not read; the table is a parameter, and `Model/Defaults` is its value in the
code), `entity.ItemName` (not used),
assignment of attributes that the class of the object does not define (a list of objects is assigned as the
constructor would build it: `entity.filters = [Filter(**f) for f in v]`),
the file system, the event handler of the mod, keyword argument errors other than those the mixin chain raises,
methods overridden in derived classes, `verbose` of the constructor of blueprints, memory, threads and performance.

## 6. Where code and property disagree

The model follows the code; each item is a theorem.

* C10: `decode('')` raises `IndexError`; text that is not UTF-8, not JSON or not ASCII raises `ValueError`.
* C20, C21: the counter-clockwise branch of `Entity.rotate` computes `amount % (4 - amount)`.
* C22: a selection box that is not centred on the entity does not turn about the entity.
* C23: a rotation that fails midway leaves the entities before the failing one turned.
* C27: the exported `circuit_id` is the near connector.
* C28, C43: a wire between two connectors of one entity is exported differently each time, so `bp != bp`.
* C30: wires to removed entities stay in the export.
* C32: the control behaviour of inserters swallows unknown settings.
* C33: a constant first operand of a circuit condition is lost; a decider comparison with a constant is refused; a
  filter name that is not text; `strict` is not exported; renaming to another type keeps the old settings.
* C34: decider constants.
* C35: wires between connectors with different numbers, and everything of C33/C34.
* C36: `load` pops `schedules` and empties combinator conditions in the caller's data.
* C37: an incomplete prototype file replaces some tables before it raises.
* C38: icon indices 0 to −3 are accepted.
* C39: fractions of borders are cut off, so the extent may be too small.
* C40: `recenter` moves the entities and then raises; `weighted_center` always raises.
* C42: no tile can be placed or imported.
* C45: `load` appends to what is there and keeps the old label colour.
* C47: the default sides of `connect` raise.
* C51: a condition exports its second signal in a form its constructor refuses; a missing first signal likewise.
* C52: a rejected `inventory`, `infinity_settings`, `infinity_settings_filters` or `request_filters` leaves the
  entries before the faulty one; the old ones are gone.
* C52 (observation): the comparators of entities are `>`, `<`, `=`, `≥`, `≤` and `!=`; the game writes `≠`, which is
  refused.
* C54: an import that raises midway leaves entities with the numbers found in the data; an export may then contain a
  number twice.
* C55: a removed locomotive stays in its schedule, which is exported with the number it had.
* C57: a removed entity stays at the end of its wires, whose references are exported with the number it had.  A wire to
  an entity of another blueprint is accepted and exported with a number of the other blueprint (`C56_leak`).
* C59: `load` forgets the wires made by `connect`; the numbers in a second import are looked up among all entities, so
  its wires may be attached to entities of the first.
* C60: no row of `entity_prototypes` has the mixins `Container` and `Variation`; their settings `bar` and `variation`
  are refused for every entity without custom mixins.
* C62: a wire between two connectors of one entity is exported differently after `flip`; `flip_color` turns a wire of
  any colour but green into a green one.
* C64: copper wires have no colour between the connector and the list of references; `parse_connections` calls
  `.items()` on the list.  No mixin knows `neighbours`.
* C65: the rows of assembling machines, furnaces, labs, mining drills and rocket silos have no `Items`, that of the
  locomotive no `Color`; data with modules or paint are refused.
* C66: `Blueprint.item_prototypes` is never read.  Filters, requests and alert icons are checked against
  `defaultentities.py`, which lacks items that `entity_data.json` lists (`automation-science-pack`, `nuclear-fuel`,
  `artillery-shell`, …) and has items of earlier versions, tiles and signals; `concrete` has the type `tile` in it.
* C69: the argument `strict` of `Blueprint` is stored on the blueprint and its layers and read nowhere.  A string whose
  JSON value is `null` gives an empty blueprint without complaint.
* C71: orientations that are not multiples of a power of two are not restored by four quarter turns: a train facing
  `0.1` then faces `0.10000000000000009` (`C71_false`).  A box whose border is the float before `0.5`, at `4.5`, is
  reported to reach `5` (`C71_extent_false`).
* C74: `for e in bp.entities: bp.entities.remove(e)` removes every other entity only (`C74_false`); making entities in
  such a loop never ends.
* C76: wires between different entities of the same names are printed alike (`C76_wire_false`); a `SignalID` whose name is
  `None` can be made but not printed (`C76_signal_false`).
* C77 (observation): `add_mixins` and `set_mixins` do not run the constructors of the new behaviours, so the entity cannot
  be exported until their settings are assigned.
* C78: prototype data set on a class derived from `Blueprint` is never read (`C78_unread`): names are looked up in the
  tables of `Blueprint`, so the derived class refuses the entities it was given data for (`C78_false`).
* C80: `Items.__init__` hands the remaining settings on as positional arguments (`*kwargs` instead of `**kwargs`).  Custom
  behaviours come first, so a type that was given `Items` does not take the settings of its own behaviours any more; no
  assembling machine with a recipe and modules can be imported (`C80_modules_false`).
* C82 (observation): characters outside of base64 are skipped, so exchange strings with line breaks or other rubbish in them
  are imported (`C82_line_breaks`).
* C87: an empty signal name, a number in the place of the signal of an icon or of a filter of a constant combinator, and a
  number other than zero as signal of a roboport or train stop are accepted by the import, and the export then fails
  (`C87_false`).
* C89: a refused import is not taken back: label, version, icons and the entities before the refused one stay (`C89_false`).
* C90: sixteen kinds of calls can raise after having changed something (`C90_false`): for instance `set_label` with a bad colour
  has set the label, assigning `request_filters` empties them first, exporting turns wires round before the sort raises.
* C88 (observation): `variation`, the `type` of an underground belt and `infinity_settings` must be given, all other settings
  may be left out.  `control_behavior` of inserters takes keys that it does not know, all others refuse them.  Operands of
  combinators that are both a constant and a signal are refused, those of circuit conditions are not.  A recipe is not
  checked if `strict` is false, but then the class has no recipe at all.
* C83 (observation): a belt with `control_behavior` exports `null` for the settings that were not given; mining drills and
  speakers export default values for them (`controlDefault`).
* C81 (observation): most malformed data is refused with built-in exceptions of Python rather than with those that the
  library declares; `UnknownItem` is never raised by an import.
* C58: numbers that have no decimal of 14 digits, such as a third, come back as other numbers (`C58_third_false`).
* C79: the volume `0.1`, given as a text, is kept as the float next to it (`C79_shown_false`).
* C70: the name of an icon can be set to a number or to `None`; the export then raises `AttributeError`.
* C58 (observations): control characters without an escape of their own are written as they are, and boolean keys
  without quotes; Python refuses both.  An empty list is written as an empty object.
* C73: numbers that are keys of a table other than a list come back as strings, and may then collide with keys that were
  strings (`C73_number_key_false`).  `null` comes back as an empty table.

The test suite of the project disagrees with the code in one more place: `test_misc` expects `DuplicateEntity`
when an entity is added to its own layer again; `BlueprintLayer.add` returns silently (C12).

## 7. Wrong programs

`seeded/LOG.jsonl` records edits of the model with realistic bugs, made in a copy outside this directory and
rebuilt: the definition, the edit, the claim it breaks, the theorems that failed, and those that were tightened
because they had survived.  `theorems_failed` names what Lean reported; it is the only observed result.  A failing
helper lemma takes all modules above it with it, and for most edits the build stopped there: such an entry shows that
the proofs do not go through for the wrong program, not that each theorem named under `claim` is false of it.
`claim_theorems_lost` was not observed; a script computes it from the names that occur in the sources (at most twelve
are listed) and it may be too long, or empty when the name of the lemma is too common to be followed.
