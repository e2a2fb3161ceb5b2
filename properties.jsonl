{"id": "C01", "title": "Direction is always one of the eight compass steps and does modular arithmetic", "statement": "Direction(n) equals n mod 8 and lies in 0..7 for every integer n; Direction+Direction and Direction-Direction again give Directions, and they agree with integer addition and subtraction modulo 8 (associative, commutative, a+b-b == a).", "quantifier": "all integers n, all pairs/triples of directions", "why_tests_cant": "infinitely many integers (negative, huge) as inputs", "anchors": ["py_factorio_blueprints/util.py: Direction.__new__, __add__, __sub__"]}
{"id": "C02", "title": "Direction turns form the cyclic group of the compass", "statement": "Turning a direction by k quarter (or eighth) turns clockwise and then by k counter-clockwise gives it back; turning by j then k equals turning by j+k; four quarter turns / eight eighth turns are the identity; a quarter turn is two eighth turns.", "quantifier": "all directions, all integer amounts (also negative)", "why_tests_cant": "unbounded integer amounts", "anchors": ["py_factorio_blueprints/util.py: Direction.rotate, Direction.rotate45"]}
{"id": "C03", "title": "The unit step of a direction turns with the direction", "statement": "direction.rotate(k).vector == direction.vector.rotate(k) for every k; the eight step vectors are non-zero, pairwise different, and opposite directions have opposite vectors; no direction ever falls through to the out-of-range case.", "quantifier": "all directions and all integer amounts", "why_tests_cant": "unbounded amounts; relation between two separately coded tables", "anchors": ["py_factorio_blueprints/util.py: Direction.vector, Direction.rotate, Vector.rotate"]}
{"id": "C04", "title": "Vector.rotate is the group of quarter turns", "statement": "v.rotate(k) depends only on k mod 4; v.rotate(j).rotate(k) == v.rotate(j+k); v.rotate(4) == v, v.rotate(-k) undoes v.rotate(k); rotation is additive and preserves length; the receiver is not modified.", "quantifier": "all vectors with numeric coordinates, all integer amounts", "why_tests_cant": "unbounded coordinates and amounts", "anchors": ["py_factorio_blueprints/util.py: Vector.rotate, Vector.copy"]}
{"id": "C05", "title": "Vector arithmetic is componentwise for vector, pair and scalar operands", "statement": "For +, -, *, / with a Vector, a 2-tuple or an int/float on either side, the result is the componentwise result (scalars applied to both components), ints stay ints for + - *, and (v+w)-w == v; a tuple whose length is not two raises ValueError, any other operand type raises TypeError, and a zero divisor raises ZeroDivisionError.", "quantifier": "all vectors and all operands of the supported and unsupported kinds", "why_tests_cant": "unbounded operands; laws relate two calls", "anchors": ["py_factorio_blueprints/util.py: Vector.__add__, __radd__, __sub__, __rsub__, __mul__, __rmul__, __truediv__, __rtruediv__"]}
{"id": "C06", "title": "Vector < and > are strict dominance", "statement": "v < w holds exactly when both coordinates of v are smaller; it is irreflexive, asymmetric and transitive; v < w iff w > v; == is an equivalence that ignores the int/float distinction; comparing with a 2-tuple is comparing with that vector; it is not total.", "quantifier": "all pairs and triples of vectors", "why_tests_cant": "unbounded operands, transitivity relates three calls", "anchors": ["py_factorio_blueprints/util.py: Vector.__lt__, __gt__, __eq__"]}
{"id": "C07", "title": "Vector rounding and division laws", "statement": "floor/ceil/round return integer coordinates with floor <= v < floor+1, ceil-1 < v <= ceil, v-1/2 < round <= v+1/2 (halves go up); (v // w) * w + v % w == v with the remainder between zero and the divisor; a float % Vector evaluates to None instead of a vector.", "quantifier": "all vectors, all non-zero divisors", "why_tests_cant": "unbounded numeric inputs", "anchors": ["py_factorio_blueprints/util.py: Vector.ceil, floor, round, __floordiv__, __rfloordiv__, __mod__, __rmod__"]}
{"id": "C08", "title": "Colour components are always within [0, 1] and survive export", "statement": "After construction or any assignment every component of a Color lies in [0,1]; values already in range are kept; Color(**c.to_json()) == c; colour equality is componentwise equality.", "quantifier": "all sequences of component assignments with arbitrary numbers", "why_tests_cant": "unbounded assignment histories and values", "anchors": ["py_factorio_blueprints/util.py: Color"]}
{"id": "C09", "title": "Exchange strings round-trip", "statement": "decode(encode(x)) == x for every JSON value x whose dict keys are strings (and with integer keys turned into their decimal strings otherwise), and every encoded string starts with the version byte 0; hence different values never encode to the same string.", "quantifier": "all JSON values of any depth and size", "why_tests_cant": "unbounded nesting and sizes", "anchors": ["py_factorio_blueprints/util.py: encode, decode, _encode_0, _decode_0"]}
{"id": "C10", "title": "Malformed exchange strings are reported as InvalidExchangeString", "statement": "decode raises InvalidExchangeString for every string that is not an encoding: wrong version byte, bad base64, bad zlib data, bad JSON, empty string.", "quantifier": "all strings", "why_tests_cant": "infinitely many malformed strings; every failing stage must be mapped", "anchors": ["py_factorio_blueprints/util.py: decode, _decode_0"]}
{"id": "C11", "title": "An entity belongs to exactly the layer that lists it", "statement": "After any sequence of API calls (constructing, make, add, remove, del by object or position, rotate, load, recenter, connect, export), including calls that raise midway, no layer lists an entity twice, no two blueprints list the same entity, and every listed entity reports that blueprint as its own.", "quantifier": "all histories of API calls over any number of blueprints and entities, including failing calls", "why_tests_cant": "unbounded histories and crash points inside calls", "anchors": ["py_factorio_blueprints/blueprint.py: BlueprintLayer.add, remove, __delitem__, make, _load", "py_factorio_blueprints/entity.py: Entity.blueprint"]}
{"id": "C12", "title": "Adding is idempotent, exclusive and all-or-nothing", "statement": "Adding an entity already listed in this blueprint changes nothing; adding one that is owned by another blueprint raises DuplicateEntity and changes nothing; adding something of another type raises TypeError and changes nothing; otherwise the listed set grows by exactly that entity.", "quantifier": "all blueprints and entities in all reachable states", "why_tests_cant": "must hold in every reachable state", "anchors": ["py_factorio_blueprints/blueprint.py: BlueprintLayer.add"]}
{"id": "C13", "title": "Entities are kept in reading order and numbered 1..n", "statement": "After every successful make, load or rotate and every add of an entity that was not yet listed, the entities of the blueprint are ordered by (y, x), equal positions keep their previous relative order, and the numbers used in the export are 1..n in that order.", "quantifier": "all blueprints of any size and content", "why_tests_cant": "unbounded sizes; stability and permutation claims", "anchors": ["py_factorio_blueprints/blueprint.py: BlueprintLayer.sort, __sort, __reindex, add, rotate", "py_factorio_blueprints/blueprint.py: Blueprint.load"]}
{"id": "C14", "title": "Looking up a position returns exactly the entities covering it", "statement": "blueprint.entities[p] lists, in layer order and without repetition, exactly those entities whose (direction-adjusted) selection box strictly contains p; a tuple and a Vector give the same answer, and the lookup changes nothing.", "quantifier": "all blueprints, all positions", "why_tests_cant": "exactness over unbounded layouts", "anchors": ["py_factorio_blueprints/blueprint.py: BlueprintLayer.__getitem__", "py_factorio_blueprints/entity.py: Entity.collides, selection_box"]}
{"id": "C15", "title": "Deleting at a position deletes exactly what covers it", "statement": "del blueprint.entities[p] removes every entity covering p and no other, keeps the relative order of the rest, detaches the removed ones (so they can be added elsewhere), and a second lookup at p is empty.", "quantifier": "all blueprints, all positions", "why_tests_cant": "unbounded layouts", "anchors": ["py_factorio_blueprints/blueprint.py: BlueprintLayer.__delitem__"]}
{"id": "C16", "title": "Removing one entity disturbs nothing else", "statement": "remove(e) / del entities[e] drops exactly e, detaches it, keeps order, position, number and settings of all other entities, keeps the numbers distinct; removing an entity that is not listed raises ValueError and changes nothing; remove followed by add of the same entity succeeds.", "quantifier": "all reachable states", "why_tests_cant": "every reachable state", "anchors": ["py_factorio_blueprints/blueprint.py: BlueprintLayer.remove, __delitem__"]}
{"id": "C17", "title": "Lookup by imported id finds the first entity with that id", "statement": "get_by_id / get_entity_by_id return an entity of the blueprint whose entity_number is the id, the first such in reading order, and None exactly if there is none.", "quantifier": "all blueprints and ids", "why_tests_cant": "unbounded layouts", "anchors": ["py_factorio_blueprints/blueprint.py: BlueprintLayer.get_by_id, Blueprint.get_entity_by_id"]}
{"id": "C18", "title": "The order of entities in the imported data does not matter", "statement": "If no two entities share a position, loading any permutation of the entity list produces the same entities in the same order with the same numbers.", "quantifier": "all entity lists and all permutations", "why_tests_cant": "factorially many permutations of unbounded lists", "anchors": ["py_factorio_blueprints/blueprint.py: Blueprint.load, BlueprintLayer.sort"]}
{"id": "C19", "title": "Whole-blueprint rotation composes and four quarter turns are the identity", "statement": "rotate(j) followed by rotate(k) leaves the blueprint exactly as rotate(j+k) does (positions, directions, orientation, order and numbers), and rotate(4) after any normalised state is the identity.", "quantifier": "all blueprints, all integer amounts", "why_tests_cant": "unbounded sizes and amounts, intermediate re-sorting with ties", "anchors": ["py_factorio_blueprints/blueprint.py: Blueprint.rotate, BlueprintLayer.rotate", "py_factorio_blueprints/entity.py: Entity.rotate", "py_factorio_blueprints/entity_mixins.py: Rotatable.rotate, Orientation.rotate"]}
{"id": "C20", "title": "Counter-clockwise rotation undoes clockwise rotation", "statement": "entity.rotate(k, direction=COUNTER_CLOCKWISE) after entity.rotate(k) restores position and direction.", "quantifier": "all entities, all integer amounts", "why_tests_cant": "unbounded inputs", "anchors": ["py_factorio_blueprints/entity.py: Entity.rotate"]}
{"id": "C21", "title": "Entities and tiles of a blueprint turn the same way", "statement": "For any amount and direction argument given to blueprint.rotate, tiles and entities are rotated by the same angle around the same point.", "quantifier": "all amounts, all direction arguments", "why_tests_cant": "unbounded inputs", "anchors": ["py_factorio_blueprints/blueprint.py: Blueprint.rotate", "py_factorio_blueprints/entity.py: Entity.rotate", "py_factorio_blueprints/util.py: Tile.rotate"]}
{"id": "C22", "title": "Rotating a blueprint rotates what each position covers", "statement": "For a rotatable entity, the entity covers p before the rotation iff it covers the rotated p afterwards.", "quantifier": "all entities, positions and amounts", "why_tests_cant": "unbounded inputs", "anchors": ["py_factorio_blueprints/entity.py: Entity.rotate, selection_box, collides"]}
{"id": "C23", "title": "A failing rotation leaves the blueprint unchanged", "statement": "If blueprint.rotate raises, no entity has been moved; and it raises only if some rolling stock has no orientation.", "quantifier": "all blueprints, all failure points", "why_tests_cant": "crash points inside a loop over unboundedly many entities", "anchors": ["py_factorio_blueprints/blueprint.py: BlueprintLayer.rotate", "py_factorio_blueprints/entity_mixins.py: Orientation.rotate"]}
{"id": "C24", "title": "Wire equality is an equivalence that ignores which end is first", "statement": "Two Connections are equal exactly if they have the same colour and join the same two (entity, side) end points in either order; equality is reflexive, symmetric, transitive, flip() preserves it and flip() twice restores the connection; flip_color twice restores red/green wires.", "quantifier": "all connections", "why_tests_cant": "unbounded universe of entities and sides", "anchors": ["py_factorio_blueprints/util.py: Connection.__eq__, flip, orientate, flip_color"]}
{"id": "C25", "title": "A blueprint never records the same wire twice", "statement": "After any history of connect, load, export, add/remove, the recorded wires are pairwise different; connecting two end points that are already joined by that colour in either order adds nothing; connect adds at most one wire and never drops one.", "quantifier": "all histories of API calls that do not recolour wires", "why_tests_cant": "unbounded histories", "anchors": ["py_factorio_blueprints/entity.py: Entity.connect", "py_factorio_blueprints/blueprint.py: Blueprint.parse_connections"]}
{"id": "C26", "title": "Each wire is exported at both of its ends", "statement": "In the export, an entity's connection lists mention, for each wire attached to it, the other end's exported number under this end's side and the wire's colour, and mention nothing else; so A lists B iff B lists A.", "quantifier": "all blueprints without dangling wires", "why_tests_cant": "unbounded wire sets", "anchors": ["py_factorio_blueprints/entity.py: Entity.connections_to_json, get_connections"]}
{"id": "C27", "title": "The export names the correct connector of the far end", "statement": "For a wire ending at a two-connector entity (combinator), the circuit_id exported at the other end is the wire's side at that far entity.", "quantifier": "all wires", "why_tests_cant": "unbounded wire sets", "anchors": ["py_factorio_blueprints/entity.py: Entity.connections_to_json"]}
{"id": "C28", "title": "Exporting is repeatable and does not change the blueprint", "statement": "Calling to_json twice gives the same result and leaves entities and wires (up to the order of ends) unchanged.", "quantifier": "all blueprints, any number of exports", "why_tests_cant": "history dependent: exports mutate shared connection objects", "anchors": ["py_factorio_blueprints/blueprint.py: Blueprint.to_json", "py_factorio_blueprints/entity.py: Entity.get_connections", "py_factorio_blueprints/util.py: Connection.orientate"]}
{"id": "C29", "title": "Importing wires records each referenced pair once and rejects dangling references", "statement": "After a successful load, the recorded wires are, up to the order of ends, exactly the references found in the entities' connection lists; a reference to an id that no entity has makes the load fail.", "quantifier": "all connection data", "why_tests_cant": "unbounded data", "anchors": ["py_factorio_blueprints/blueprint.py: Blueprint.parse_connections"]}
{"id": "C30", "title": "Removing an entity removes its wires from the export", "statement": "After removing an entity, no exported connection refers to it.", "quantifier": "all histories", "why_tests_cant": "history dependent", "anchors": ["py_factorio_blueprints/blueprint.py: BlueprintLayer.remove", "py_factorio_blueprints/entity.py: Entity.connections_to_json"]}
{"id": "C31", "title": "Unknown prototypes are rejected and nothing is added", "statement": "With strict checking, make() with a name that is not in the loaded prototype data raises UnknownEntity and leaves the blueprint as it was; likewise an unknown recipe raises UnknownRecipe, an unknown signal UnknownSignal, an unknown tile name UnknownTile.", "quantifier": "all names and prototype tables", "why_tests_cant": "unbounded names and tables", "anchors": ["py_factorio_blueprints/entity.py: EntityName.__set__", "py_factorio_blueprints/entity_mixins.py: RecipeName.__set__, SignalName.__set__", "py_factorio_blueprints/util.py: TileName.__set__"]}
{"id": "C32", "title": "Unsupported settings are rejected, never silently dropped", "statement": "Constructing an entity with a key that none of its behaviours understands raises TypeError, at entity level and inside control_behavior.", "quantifier": "all entity types, all extra keys", "why_tests_cant": "unbounded keys and combinations of mixins", "anchors": ["py_factorio_blueprints/entity_mixins.py: BaseMixin.__init__, BaseMixin.ControlBehavior.__init__, Inserter.ControlBehavior.__init__, Items.__init__"]}
{"id": "C33", "title": "Exported entity settings can be imported again without loss", "statement": "For every entity type, importing the exported settings of an entity under the same prototype data succeeds and exports to the same settings again.", "quantifier": "all prototype types, all settings that were accepted", "why_tests_cant": "unbounded settings", "anchors": ["py_factorio_blueprints/entity_mixins.py: all mixins", "py_factorio_blueprints/entity_prototypes.py: entity_prototypes"]}
{"id": "C34", "title": "Combinator operands survive export", "statement": "For arithmetic and decider combinators, first/second/output operands (signal or constant), operator and copy-count flag are unchanged by export followed by import.", "quantifier": "all operand values", "why_tests_cant": "unbounded operands", "anchors": ["py_factorio_blueprints/entity_mixins.py: Combinator.ControlBehavior, Decider.ControlBehavior, Arithmetic.ControlBehavior"]}
{"id": "C35", "title": "A blueprint survives export and import", "statement": "Importing the export of a blueprint (as data or as exchange string) gives a blueprint with the same entities in the same order with the same settings, the same wires, icons, label, version, tiles and schedules.", "quantifier": "all loadable blueprints", "why_tests_cant": "unbounded blueprints", "anchors": ["py_factorio_blueprints/blueprint.py: Blueprint.load, to_json, to_string"]}
{"id": "C36", "title": "Loading does not modify the data passed in", "statement": "After Blueprint(data=d) the caller's d is unchanged, so loading it again gives an equal blueprint.", "quantifier": "all data", "why_tests_cant": "hidden aliasing on arbitrary data", "anchors": ["py_factorio_blueprints/blueprint.py: Blueprint.load", "py_factorio_blueprints/entity_mixins.py: Combinator.ControlBehavior.__init__"]}
{"id": "C37", "title": "Prototype data replace/append semantics", "statement": "Setting prototype data replaces the table; with append, names in the new data win, all other names keep their old entry; the other tables are unaffected; import_prototype_data either updates all five tables or none.", "quantifier": "all tables and sequences of updates", "why_tests_cant": "unbounded tables, failure points", "anchors": ["py_factorio_blueprints/blueprint.py: Blueprint.set_*_prototype_data, import_prototype_data"]}
{"id": "C38", "title": "Icons keep their slot", "statement": "An icon imported with index i in 1..4 is exported with index i and the same signal; later icons for the same slot win; an index outside 1..4 is rejected.", "quantifier": "all icon lists", "why_tests_cant": "unbounded icon lists and indices", "anchors": ["py_factorio_blueprints/blueprint.py: Blueprint.load, Blueprint.to_json"]}
{"id": "C39", "title": "The reported extent encloses all entities", "statement": "maximum_values / corners / center are the tightest integer bounds around the selection boxes of all entities.", "quantifier": "all blueprints", "why_tests_cant": "unbounded layouts; order of iteration must not matter", "anchors": ["py_factorio_blueprints/blueprint.py: Blueprint.maximum_values, center, corners"]}
{"id": "C40", "title": "Recentering moves everything by the same offset and succeeds", "statement": "recenter() shifts each entity by the (rounded up) centre and returns normally; weighted_center returns the mean position.", "quantifier": "all blueprints", "why_tests_cant": "unbounded layouts", "anchors": ["py_factorio_blueprints/blueprint.py: Blueprint.recenter, weighted_center"]}
{"id": "C41", "title": "Schedules follow their locomotives through renumbering", "statement": "After import, a schedule is exported with exactly the new numbers of the entities whose imported ids it listed, in the same order, ids that match nothing are dropped, and the schedule content is unchanged.", "quantifier": "all blueprints and schedules", "why_tests_cant": "unbounded data and later reorderings", "anchors": ["py_factorio_blueprints/blueprint.py: Schedule, Blueprint.load"]}
{"id": "C42", "title": "Tiles can be imported, placed and exported", "statement": "A blueprint with tiles loads, tiles.make adds a tile, tiles[p] finds it, and the export lists it.", "quantifier": "all tile lists", "why_tests_cant": "all inputs and all histories", "anchors": ["py_factorio_blueprints/blueprint.py: BlueprintLayer._load, make, add", "py_factorio_blueprints/util.py: Tile"]}
{"id": "C43", "title": "Blueprint equality is an equivalence that matches the export", "statement": "bp1 == bp2 iff both export to the same string; bp == bp holds always; a blueprint never equals an object of another class; != is the opposite of ==.", "quantifier": "all blueprints", "why_tests_cant": "comparison runs two mutating exports", "anchors": ["py_factorio_blueprints/blueprint.py: Blueprint.__eq__, to_string"]}
{"id": "C44", "title": "Every supported prototype composes into a usable class", "statement": "For every prototype type in the table an entity class can be built (no method-resolution conflict), with the behaviours consulted in the documented order; changing the name of an entity to another prototype of the same type any number of times keeps it exportable with the same settings.", "quantifier": "all prototype types; any number of renames", "why_tests_cant": "unbounded rename histories", "anchors": ["py_factorio_blueprints/entity.py: Entity.add_mixins, EntityName.__set__", "py_factorio_blueprints/util.py: ControlBehaviorMeta", "py_factorio_blueprints/entity_prototypes.py: entity_prototypes"]}
{"id": "C45", "title": "load replaces the content of the blueprint", "statement": "Calling load(data) on a blueprint that already has content leaves only the content of data.", "quantifier": "all blueprints and data", "why_tests_cant": "history dependent", "anchors": ["py_factorio_blueprints/blueprint.py: Blueprint.load, parse_connections"]}
{"id": "C46", "title": "Rolling stock orientation is a normalised fraction of a turn", "statement": "The orientation of a train vehicle is always None or in [0, 1); rotating by k quarter turns adds k/4 modulo 1.", "quantifier": "all assignment/rotation histories", "why_tests_cant": "unbounded histories", "anchors": ["py_factorio_blueprints/entity_mixins.py: Train.orientation, Orientation.rotate"]}
{"id": "C47", "title": "connect() with its default sides works", "statement": "entity.connect(other) with default arguments adds a red wire between the two entities.", "quantifier": "all pairs of entities", "why_tests_cant": "all states", "anchors": ["py_factorio_blueprints/entity.py: Entity.connect", "py_factorio_blueprints/util.py: Connection.__init__"]}
{"id": "C48", "title": "Everything the data gatherer collects is supported by the library", "statement": "Every entity type collected by the Lua mod has a row in the Python prototype table and vice versa, so a gathered entity name never fails because its type is unknown.", "quantifier": "all game data sets", "why_tests_cant": "unbounded game data", "anchors": ["blueprint_data_gatherer/control.lua: gatherer_entity_prototypes, gather_prototype_data", "py_factorio_blueprints/entity_prototypes.py: entity_prototypes", "py_factorio_blueprints/entity.py: EntityName.__set__"]}
{"id": "C49", "title": "Tile rotation is a rotation around the given point", "statement": "tile.rotate(k) four times is the identity, counter-clockwise undoes clockwise, the distance to the centre of rotation is kept.", "quantifier": "all tiles, amounts and centres", "why_tests_cant": "unbounded inputs", "anchors": ["py_factorio_blueprints/util.py: Tile.rotate"]}
{"id": "C50", "title": "Label and label colour survive load and export; set_label replaces them", "statement": "The exported label, label colour and version are the imported ones (colour clamped); set_label(l, c) makes exactly l and (clamped) c the exported ones, c=None keeps the colour.", "quantifier": "all labels, colours and histories", "why_tests_cant": "unbounded histories", "anchors": ["py_factorio_blueprints/blueprint.py: Blueprint.load, set_label, to_json"]}
{"id": "C51", "title": "Conditions and signal ids survive export and import", "statement": "A Condition or SignalID that was exported can be constructed from the export again and is the same condition or signal id; only the six comparators are accepted.", "quantifier": "all arguments and all static tables", "why_tests_cant": "unbounded inputs", "anchors": ["py_factorio_blueprints/util.py: Condition, SignalID, NameStr"]}
{"id": "C52", "title": "Assigning a setting is like constructing with it", "statement": "Assigning a value to a setting of an entity, or to its control behaviour, either raises what the constructor would raise for that value and changes nothing, or leaves exactly the entity that the constructor would have made with it; only the setting itself changes, and settings with a closed range (type, filter mode, priorities, recipe, variation, launch mode, signals, operators) accept exactly the values of that range.", "quantifier": "all entities made with any settings in any blueprint, all settings, all JSON values, all later histories for control behaviours", "why_tests_cant": "unbounded values and settings; the equality with construction is over the whole world", "anchors": ["py_factorio_blueprints/entity_mixins.py: property setters and descriptors", "py_factorio_blueprints/entity.py: Entity.__init__"]}
{"id": "C53", "title": "Wires are listed in a canonical order", "statement": "get_connections lists every wire of an entity exactly once, seen from the entity, in ascending order of the number of the far end, wires to equal numbers in the order in which they were made; the exported references under a connector and colour are in ascending order.", "quantifier": "all worlds, entities and wires", "why_tests_cant": "any number of wires in any order of creation", "anchors": ["py_factorio_blueprints/entity.py: Entity.get_connections, Entity.connections_to_json"]}
{"id": "C54", "title": "Exported entity numbers are unique", "statement": "After any sequence of calls, every entity of an export has a number and no two entities of an export have the same number.", "quantifier": "all histories of calls, failing or not, and all blueprints", "why_tests_cant": "unbounded histories; the numbers are only assigned when a layer is sorted", "anchors": ["py_factorio_blueprints/blueprint.py: BlueprintLayer.add, BlueprintLayer._load, BlueprintLayer._sort, Blueprint.load", "py_factorio_blueprints/entity.py: Entity.__init__, Entity.to_json"]}
{"id": "C55", "title": "Exported schedules name entities of the export", "statement": "In every export each number listed by a schedule is the number of exactly one exported entity, namely of the locomotive the schedule refers to.", "quantifier": "all histories of calls and all blueprints", "why_tests_cant": "unbounded histories of adding, removing and renumbering", "anchors": ["py_factorio_blueprints/blueprint.py: Schedule, Blueprint.to_json, BlueprintLayer.remove"]}
{"id": "C56", "title": "Blueprints do not affect each other", "statement": "A call made on one blueprint, on its layers, its wires or its entities changes neither another blueprint nor the entities that belong to it, whether the call succeeds or raises; entities without a layer change only by calls made on them; prototype data changes only by the calls for it. Hence the export of a blueprint whose wires and schedules refer to its own entities is the same before and after any calls made elsewhere.", "quantifier": "all histories of calls before and after, all calls, all blueprints", "why_tests_cant": "frame condition over the whole state for unbounded histories", "anchors": ["py_factorio_blueprints/blueprint.py: Blueprint, BlueprintLayer", "py_factorio_blueprints/entity.py: Entity"]}
{"id": "C57", "title": "Exported wires name entities of the export", "statement": "In every export each reference of a wire names exactly one exported entity, the one at the other end of the wire.", "quantifier": "all histories of calls and all blueprints", "why_tests_cant": "unbounded histories of adding, removing, connecting and renumbering", "anchors": ["py_factorio_blueprints/entity.py: Entity.connect, Entity.connections_to_json", "py_factorio_blueprints/blueprint.py: BlueprintLayer.remove, Blueprint.parse_connections"]}
{"id": "C58", "title": "What the gatherer writes is what Python reads", "statement": "For all data made of booleans, numbers whose text is exact, strings without control characters other than those with an escape, arrays, and tables with string keys, json.stringify of the data gatherer succeeds and json.loads reads its text as that data (an empty table as an object). Hence importing the file written for the gathered data, in whatever order Lua visits the tables, fills the five prototype tables with the gathered data, and every entity in it can be created.", "quantifier": "all Lua values of that form, of any depth and size, and all games", "why_tests_cant": "round trip between two languages over all nested values", "anchors": ["blueprint_data_gatherer/json.lua: json.stringify, kind_of, escape_str", "blueprint_data_gatherer/control.lua: write_data", "py_factorio_blueprints/blueprint.py: Blueprint.import_prototype_data"]}
{"id": "C59", "title": "A further import keeps the wires and joins its own entities", "statement": "Importing data into a blueprint keeps every wire that is there, and the references in the data are attached to entities of the data.", "quantifier": "all histories before the import, all data", "why_tests_cant": "depends on the whole history and on how numbers of different imports coincide", "anchors": ["py_factorio_blueprints/blueprint.py: Blueprint.load, parse_connections, BlueprintLayer.get_entity_by_id"]}
{"id": "C60", "title": "Every setting the library implements can be used", "statement": "For every setting that a behaviour class implements there is an entity type of the prototype table that accepts it, and it is then part of the export; a setting is accepted only by the types whose row has its behaviour.", "quantifier": "all settings, all entity types, all prototype data", "why_tests_cant": "non-existence over all entities, values and prototype data", "anchors": ["py_factorio_blueprints/entity_prototypes.py: entity_prototypes", "py_factorio_blueprints/entity_mixins.py: Container, Variation", "py_factorio_blueprints/entity.py: EntityName.__set__"]}
{"id": "C61", "title": "Assigning position, direction, number and name of an entity", "statement": "Assigning a position or a direction to an entity changes exactly that, refuses other values without a change, and is like making the entity with it; the export shows the position, and the direction of entities that can be turned. A new name brings the behaviours of the new type and of the blueprint.", "quantifier": "all worlds, entities and values", "why_tests_cant": "unbounded values and entities; nothing else may change", "anchors": ["py_factorio_blueprints/entity.py: Entity.position, Entity.direction, EntityName.__set__", "py_factorio_blueprints/util.py: Direction, Vector"]}
{"id": "C62", "title": "Turning round or recolouring a wire changes exactly that wire", "statement": "flip swaps the ends of one wire and does not show in the export; flip_color exchanges red and green of one wire, twice restores it, and the export shows the new colour at both ends. All other wires stay.", "quantifier": "all reachable worlds, all wires", "why_tests_cant": "unbounded lists of wires", "anchors": ["py_factorio_blueprints/blueprint.py: Blueprint.to_json", "py_factorio_blueprints/util.py: Connection.flip, Connection.flip_color"]}
{"id": "C63", "title": "The order of keys does not matter and unknown keys are lost", "statement": "An import depends only on the values of the eight known keys of the blueprint data, not on the order of keys in the data, in its entities or in their control behaviours; unknown keys do not appear in the export.", "quantifier": "all data, all worlds", "why_tests_cant": "all orders and all extra keys", "anchors": ["py_factorio_blueprints/blueprint.py: Blueprint.load, Blueprint.to_json", "py_factorio_blueprints/entity.py: Entity.__init__"]}
{"id": "C64", "title": "Copper wires can be imported", "statement": "Blueprint data with copper wires (of power switches, under connections; of poles, under neighbours) can be imported.", "quantifier": "all data with copper wires, all reachable worlds", "why_tests_cant": "non-existence over all data and histories", "anchors": ["py_factorio_blueprints/blueprint.py: Blueprint.parse_connections", "py_factorio_blueprints/entity_prototypes.py: electric-pole, power-switch"]}
{"id": "C65", "title": "Each type of entity takes the settings it has in the game", "statement": "Entities of each type take exactly the settings written out in Spec/Types.lean, which should include modules for machines and paint for locomotives; each of them can be given and is exported.", "quantifier": "all types, settings, values and worlds", "why_tests_cant": "for all settings outside the list; all values", "anchors": ["py_factorio_blueprints/entity_prototypes.py: entity_prototypes", "py_factorio_blueprints/entity_mixins.py", "py_factorio_blueprints/entity.py: Entity.__init__"]}
{"id": "C66", "title": "Names of items in settings are checked against the imported prototype data", "statement": "A filter, request or alert icon is accepted if and only if the item it names is in the imported table of items, and its type is that of the imported data.", "quantifier": "all histories of calls, imported tables, settings, items and worlds", "why_tests_cant": "for all imported tables and all histories of calls; the tests import one table", "anchors": ["py_factorio_blueprints/util.py: NameStr", "py_factorio_blueprints/defaultentities.py: defaultentities", "py_factorio_blueprints/blueprint.py: item_prototypes", "py_factorio_blueprints/entity_mixins.py: Cargo, InfinityContainer, Requester, Speaker, Splitter"]}
{"id": "C67", "title": "Sorting a layer puts it in order and renumbers it", "statement": "entities.sort() orders the entities by y, then x, keeps the order of equal positions, numbers them 1, 2, 3 …, changes nothing else, and repairs the numbering after moves or imports that raised; turning the entity layer is the same as turning the blueprint.", "quantifier": "all worlds and blueprints, all reachable worlds for rotation", "why_tests_cant": "for all lists, positions and histories", "anchors": ["py_factorio_blueprints/blueprint.py: BlueprintLayer.sort, BlueprintLayer.rotate, Blueprint.rotate"]}
{"id": "C68", "title": "Reading the wires again touches the wires only", "statement": "parse_connections() changes nothing but the wires of its blueprint; doing it twice is doing it once; after any calls on wires it restores the wires that the import had made.", "quantifier": "all worlds; all sequences of wire calls", "why_tests_cant": "for all sequences of calls on wires and all imported data", "anchors": ["py_factorio_blueprints/blueprint.py: Blueprint.parse_connections"]}
{"id": "C69", "title": "The arguments of the constructor of Blueprint", "statement": "Blueprint(string) and Blueprint(data=…) are an empty blueprint followed by load; a string of an encoded value is the same as that value; strict=False makes the blueprint accept unknown names.", "quantifier": "all strings, values, custom prototypes, worlds and histories of calls", "why_tests_cant": "for all strings and histories; a flag without effect cannot be found by samples", "anchors": ["py_factorio_blueprints/blueprint.py: Blueprint.__init__, BlueprintLayer.__init__", "py_factorio_blueprints/util.py: decode"]}
{"id": "C70", "title": "Icons, schedules, label, item and version changed by the user show in the export", "statement": "Assigning the name of an icon, emptying an icon slot, appending a schedule, or assigning label, item or version changes exactly that part of the export; what cannot be exported is refused.", "quantifier": "all worlds, blueprints that can be exported, slots and values", "why_tests_cant": "for all blueprints and all values", "anchors": ["py_factorio_blueprints/blueprint.py: Blueprint.load, Blueprint.to_json, Schedule", "py_factorio_blueprints/entity_mixins.py: SignalName"]}
{"id": "C71", "title": "On a binary grid, rotating, moving and looking up are exact with floats", "statement": "If the coordinates of all entities and of the given point are multiples of 1/2^k that floats can hold, then rotating a blueprint, moving it by a given point, looking up an entity at a point, and any sequence of rotations give with rounded floats what they give with exact numbers; four quarter turns restore the blueprint. So do the extent, the corners and the centre of the blueprint and moving it to its centre, as long as no border of a selection box is too close to the grid without being on it.", "quantifier": "all roundings that leave numbers of 53 bits alone (and, for the extent, keep the order of numbers), all reachable worlds on a grid, all points, amounts, directions and lists of rotations", "why_tests_cant": "rounding errors depend on the values of the coordinates", "anchors": ["py_factorio_blueprints/entity.py: Entity.rotate, Entity.collides", "py_factorio_blueprints/util.py: Vector", "py_factorio_blueprints/entity_mixins.py: Orientation, Train", "py_factorio_blueprints/blueprint.py: BlueprintLayer.rotate, Blueprint.recenter, Blueprint.maximum_values, Blueprint.center"]}
{"id": "C72", "title": "Turning, moving or sorting a blueprint, seen in the export", "statement": "The exports before and after turning a blueprint list the same entities: each has its position turned around the given point, its direction advanced and its orientation turned, everything else is the same; the entity numbers are new, and the wires and schedules use the new numbers consistently. Sorting changes the numbers only; recenter moves the positions only. A blueprint that could be exported can still be exported.", "quantifier": "all reachable worlds, blueprints whose wires and schedules mention only their own entities, all amounts and points", "why_tests_cant": "for all blueprints; the renumbering has to be consistent between entities, wires and schedules", "anchors": ["py_factorio_blueprints/blueprint.py: Blueprint.rotate, Blueprint.recenter, BlueprintLayer.sort, Blueprint.to_json, Schedule.to_json", "py_factorio_blueprints/entity.py: Entity.rotate, Entity.to_json", "py_factorio_blueprints/entity_mixins.py: Rotatable, Train"]}
{"id": "C73", "title": "json.parse of the gatherer reads back what json.stringify wrote", "statement": "Every Lua value made of booleans, strings, numbers and tables with boolean, string or number keys is written by json.stringify without error, and json.parse reads the text as the same value, except that number keys of tables that are not lists come back as strings. The value read is the same exactly if no table other than a list has a number as a key.", "quantifier": "all such values of any depth, all strings, all orders in which pairs visits a table, all renderings of numbers that tonumber inverts", "why_tests_cant": "nesting, escapes and the visiting order are unbounded", "anchors": ["blueprint_data_gatherer/json.lua: kind_of, escape_str, skip_delim, parse_str_val, parse_num_val, json.stringify, json.parse"]}
{"id": "C74", "title": "Walking over a layer while changing it", "statement": "A loop over bp.entities walks the live list. If the body removes the visited entity when a condition holds, the loop ends without exception, the entity after a removed one is never looked at, the removed ones are detached and nothing else changes; exactly the entities with the condition are gone if and only if no two neighbours had it. Over a copy of the list exactly those entities are removed. A body that leaves the list alone visits every entity once. A body that makes an entity at every step never ends.", "quantifier": "all reachable worlds, all conditions on entities, all loop bodies that leave the list alone, all arguments of make", "why_tests_cant": "depends on which neighbours satisfy the condition, for lists of any length; non-termination cannot be observed", "anchors": ["py_factorio_blueprints/blueprint.py: BlueprintLayer.__iter__, BlueprintLayer.remove, BlueprintLayer.make, BlueprintLayer.sort"]}
{"id": "C75", "title": "Whole numbers given as texts", "statement": "Where the library converts a value with int(...) (the sides of wires, in data and in Connection(...), and the settings bar, inventory_bar and override_stack_size), a text is accepted exactly if it is a decimal numeral, with an optional sign, blanks around it and single underscores between digits; the number it spells is kept. Different spellings of the same sides give the same wire. Other ASCII texts raise ValueError, and data with such a side are never loaded. Numbers lose their fraction towards zero.", "quantifier": "all ASCII texts, all values, all reachable worlds", "why_tests_cant": "the set of texts is infinite; the grammar has to be met and nothing else", "anchors": ["py_factorio_blueprints/util.py: Connection.__init__", "py_factorio_blueprints/blueprint.py: Blueprint.parse_connections", "py_factorio_blueprints/entity_mixins.py: Cargo.inventory_bar, Container.bar, Inserter.override_stack_size"]}
{"id": "C76", "title": "Printed forms", "statement": "repr() and str() of directions, vectors, colours, entities, wires and signal ids never raise. The printed form of a direction names the sides towards which its unit step goes and no others. Vectors and colours with the same printed form are the same; entities with the same printed form have the same name, position and direction, whatever characters the name contains; different wires have different printed forms.", "quantifier": "all directions, vectors, colours, entities, reachable worlds; floats with an exact text", "why_tests_cant": "injectivity is about all pairs of values, including names that contain the separators", "anchors": ["py_factorio_blueprints/util.py: Vector.__repr__, Color.__repr__, Direction.__repr__, Direction.__str__, Connection.__repr__, SignalID.__repr__", "py_factorio_blueprints/entity.py: Entity.__repr__, Entity.__str__"]}
{"id": "C77", "title": "Behaviours given by hand", "statement": "set_mixins succeeds exactly if no behaviour is listed twice and none before one that derives from it; afterwards the entity has the behaviours listed and what they derive from and no others, each once, in the order listed. add_mixins keeps the behaviours the entity had, in their order, and adds those listed; it succeeds for any behaviours in such an order that the entity does not have yet and for any single behaviour; adding one the entity already has changes no export. A failure raises TypeError and changes nothing; a success changes nothing but the class of that entity. The behaviours that no prototype has (Container, Variation) become usable this way: after assigning their setting the export has it and everything else as before. An entity stripped of being a combinator that keeps a combinator's control behaviour cannot be exported.", "quantifier": "all reachable worlds, all entities, all lists of behaviours", "why_tests_cant": "lists of behaviours and the classes an entity can have had before are unbounded; the merge of method resolution orders depends on all of them", "anchors": ["py_factorio_blueprints/entity.py: Entity.set_mixins, Entity.add_mixins", "py_factorio_blueprints/util.py: ControlBehaviorMeta", "py_factorio_blueprints/entity_mixins.py"]}
{"id": "C78", "title": "Prototype data of classes derived from Blueprint", "statement": "Prototype data set or imported on a class derived from Blueprint is kept by that class (appending starts from the table the class had or inherited), is used when blueprints of that class are loaded or filled, and leaves Blueprint and unrelated classes alone. Keeping and leaving alone hold; the data is never used: the library reads the tables of Blueprint itself, so every call has the outcome it would have had without it.", "quantifier": "all derived classes with any method resolution order, all tables and histories of calls on Blueprint and on derived classes", "why_tests_cant": "absence of an effect over all histories", "anchors": ["py_factorio_blueprints/blueprint.py: Blueprint.set_entity_prototype_data, Blueprint.import_prototype_data", "py_factorio_blueprints/entity.py: EntityName, ItemName", "py_factorio_blueprints/entity_mixins.py: SignalName, Recipe", "py_factorio_blueprints/util.py: TileName"]}
{"id": "C79", "title": "The volume of a speaker is the float that the given value stands for", "statement": "The parameters of a programmable speaker are accepted, by assignment, by the constructor and in imported data, exactly if they are None or a dict with the three entries of which the volume stands for a float: a float itself, a truth value, an integer or a decimal text (blanks, sign, digits with single underscores, point, exponent) below the limit of finite floats. What is kept is the binary64 number nearest to the exact value, ties to even, and the truth of the other two entries. Other ASCII texts raise ValueError, integers beyond the limit OverflowError, containers and None TypeError.", "quantifier": "all values, all texts, all reachable worlds, all entities with the behaviour of a speaker", "why_tests_cant": "the decimal texts and the floats between which they lie are too many; rounding errors show at ties, at subnormal numbers and at the limits", "anchors": ["py_factorio_blueprints/entity_mixins.py: Speaker.parameters"]}
{"id": "C80", "title": "Custom behaviours of a blueprint", "statement": "The behaviours given to a blueprint for a type of entities (custom_entity_prototypes) are added to those of the type: its entities have both, each once, take the settings of both in make and in imported data as they take them by assignment, and lists that contradict the order of derivation are refused with TypeError before anything changes; other types are not affected; what they export is taken again by a blueprint with the same custom behaviours. Taking the settings is false: once Items is among the custom behaviours, the settings of all behaviours after it are refused, in exports as well.", "quantifier": "all lists of behaviours, all types, all settings and values, all worlds", "why_tests_cant": "the combinations of behaviours, their orders and the settings given together are too many", "anchors": ["py_factorio_blueprints/entity.py: EntityName.__set__, Entity.set_mixins", "py_factorio_blueprints/entity_mixins.py: Items.__init__", "py_factorio_blueprints/blueprint.py: Blueprint.__init__"]}
{"id": "C81", "title": "Which exceptions imports and exports raise", "statement": "Whatever is imported into whatever state, an import completes or raises one of ten kinds of exceptions (TypeError, ValueError, KeyError, IndexError, AttributeError, OverflowError, and the four for unknown entities, recipes, signals and tiles); in particular never DuplicateEntity, an error of division, UnknownItem or InvalidExchangeString. The constructor with an exchange string adds InvalidExchangeString only. An export of a reachable state raises only TypeError, KeyError or AttributeError. Every one of these kinds occurs.", "quantifier": "all JSON values, all states (exports: all reachable states), all exchange strings", "why_tests_cant": "that nothing else is raised is a statement about all malformed inputs; tests only show single exceptions", "anchors": ["py_factorio_blueprints/blueprint.py: Blueprint.load, Blueprint.to_json, Blueprint.__init__", "py_factorio_blueprints/entity_mixins.py", "py_factorio_blueprints/util.py: decode"]}
{"id": "C82", "title": "Exchange strings of other programs", "statement": "The decoder reads exactly the JSON texts of RFC 8259: with any blanks between the tokens, any escapes (short ones, hexadecimal ones in either case, surrogate pairs), any way of writing a number; of a repeated key the last value counts; and it gives the value the text stands for, floats being the ones nearest to their decimals. The letters after the version are base64 by RFC 4648; characters outside of its alphabet do not count. So a string made by any program - the game uses another compressor and another layout of the JSON text - is imported like the data it stands for, and everything else is refused.", "quantifier": "all JSON values, all texts, all strings, all compressed representations of a text", "why_tests_cant": "the test suite decodes a few strings; there are unboundedly many texts of a value and strings of a text", "anchors": ["py_factorio_blueprints/util.py: decode", "py_factorio_blueprints/blueprint.py: Blueprint.__init__"]}
{"id": "C83", "title": "What was given is what is exported", "statement": "For every entity of a blueprint, made from entity data or imported with a blueprint, and not changed since, the exported data say what was given: the same name, an equal position, the same direction modulo 8 if the class can be turned, and under every setting given in the form in which the game writes it a value that is equal in the sense of Python's ==. Settings that were not given, or given as None, are not exported. The same holds for control_behavior of entities whose control behaviours are those of the prototype table (no custom mixins, or custom mixins that leave them as they are), including the conditions of arithmetic combinators and of deciders that compare signals; of the settings not given there, belts export nulls, mining drills and speakers default values, the other classes nothing. An imported and exported blueprint has exactly one such entity for each entry of the imported list, beside the entities that were there before. Every filter of an accepted list of filters with slots names its slot.", "quantifier": "all classes of the prototype table, all settings and their values in the form of the game, all prototype data, all reachable worlds, all imported blueprints", "why_tests_cant": "the test suite exports one blueprint; there are 23 settings of entities, about 40 of control behaviours and unboundedly many values and combinations; comparing exports with exports, as round-trip tests do, does not see a setting that is lost or exchanged with another on the way", "anchors": ["py_factorio_blueprints/entity_mixins.py: __init__ and to_json of every class", "py_factorio_blueprints/entity.py: Entity.__init__, Entity.to_json", "py_factorio_blueprints/blueprint.py: Blueprint.load, Blueprint.to_json"]}
{"id": "C84", "title": "The exported blueprint is wired like the imported one", "statement": "If data whose entries have different numbers are imported into a blueprint without entities, as data or as exchange string, the export describes what the data describe. There is exactly one exported entity for each entry. It lists another entity, under a connector and a colour, exactly if the data describe a wire of that colour from that connector to the other entity, that is if at least one of the two entries lists the other, and once for each connector of the other entity that is joined; it lists nothing else. Each schedule is exported with the new numbers of the entries it named and with its content. (The connector of the far end inside an exported reference is the subject of C27.)", "quantifier": "all imported data with different entity numbers, all reachable worlds, all prototype data and custom mixins, all exchange strings and the constructor", "why_tests_cant": "imported numbers, the order of the entries and the order of export are independent of each other; a test fixes one choice of them. References may stand in one or both entries, under any connector, in any spelling of the number", "anchors": ["py_factorio_blueprints/blueprint.py: Blueprint.load, Blueprint.to_json", "py_factorio_blueprints/blueprint.py: Blueprint.parse_connections", "py_factorio_blueprints/entity.py: Entity.to_json, Entity.connections"]}
{"id": "C85", "title": "An import is accepted exactly if each of its parts is", "statement": "Data are imported into a blueprint without entities, as data or as exchange string, without an exception exactly if they are an object (possibly under the key blueprint) each of whose parts is good: the label colour is absent, null or an object with numeric components called r, g, b, a only; every icon has a signal that is a whole number, a known name or nothing and an index from -3 to 4 or a truth value; every entity is an object from which entities.make would make an entity, with connections that are absent, null or an object of objects of lists of references, each with a spelled connector and the number of an entity of the data; there are no tiles; every schedule has exactly the keys schedule and locomotives, the latter something iterable. No part is accepted or refused because of another one, except references to entities.", "quantifier": "all JSON values given as data, all exchange strings, all reachable worlds with an empty blueprint, all prototype data and custom mixins", "why_tests_cant": "an import test shows that one blueprint is accepted; that nothing else is refused, and that nothing malformed passes, is a statement about every JSON value", "anchors": ["py_factorio_blueprints/blueprint.py: Blueprint.__init__, Blueprint.load, Blueprint.parse_connections", "py_factorio_blueprints/blueprint.py: Schedule.__init__", "py_factorio_blueprints/util.py: Color.__init__, Connection.__init__, decode", "py_factorio_blueprints/entity_mixins.py: SignalName.__set__"]}
{"id": "C86", "title": "Settings are accepted or refused one by one", "statement": "If an entity can be made from each of two data with the same name and the same strict, it can be made from any data that take every other key from either of them, with its value or absent as there; this includes the keys of control_behavior. Hence a value that turns accepted data into refused ones is refused under that key in all data for entities of that name: there is no combination of other settings in which it is accepted.", "quantifier": "all entity data, all classes of the prototype table and with custom mixins, all prototype data, all worlds and blueprints", "why_tests_cant": "the number of combinations of settings grows exponentially; tests try settings alone or in a few combinations", "anchors": ["py_factorio_blueprints/entity.py: Entity.__init__", "py_factorio_blueprints/entity_mixins.py: __init__ of every class and of every ControlBehavior"]}
{"id": "C87", "title": "Imported data can be exported again exactly if their signals can", "statement": "Data that were imported without an exception into a blueprint without entities are exported without an exception exactly if: for each icon slot the last icon given for it shows a signal of the signal table that has a type; every signal among the settings of every entity is null, a whole number, or a signal of the table with its type (for roboports and train stops: no number other than zero, the empty name counts as null; for the filters of constant combinators: a signal of the table with its type); the same for the operands of circuit conditions and combinators; and the icon of the alert of a speaker is in the static table with its type. Nothing else that is accepted by the import makes the export fail: no other setting, no wire, no schedule.", "quantifier": "all data accepted by the import, all reachable worlds with an empty blueprint, all prototype data and signal tables, all classes whose control behaviours are those of the table", "why_tests_cant": "tests export blueprints that the game wrote; the failing exports need values that are accepted on import and fail only later, in any of some sixty settings", "anchors": ["py_factorio_blueprints/entity_mixins.py: to_json of every class and of every ControlBehavior, SignalName", "py_factorio_blueprints/entity.py: Entity.to_json", "py_factorio_blueprints/blueprint.py: Blueprint.to_json, Blueprint.load"]}
{"id": "C88", "title": "Exactly which data make an entity", "statement": "In a blueprint with at most one custom mixin for each type, none that changes the control behaviour, an entity is made from data exactly if: there is a position with two numbers; the name is a text that gives a class (strict: through its type in the prototype table, after the custom mixin; strict given as something that counts as false: the class without behaviours); the entity number, if given, is null or a whole number and the direction a number or truth value; every other key is connections, control_behavior or a setting of one of the behaviours of the class; every behaviour finds each of its settings good; and control_behavior, if given, is an object that the control behaviour of the class takes: for combinators nothing but the conditions, with an operator of the list and three operands each of which is a constant without a signal beside it, a signal, or nothing; otherwise only known keys (any keys for inserters) with good values. Together with C85 this says which data can be imported without reference to any step of the import.", "quantifier": "all data, all classes of the prototype table, strict or not, all prototype data and tables, all worlds and blueprints, all such custom mixins", "why_tests_cant": "an equivalence over all data: tests show single accepted or refused values, not that nothing else is accepted or refused", "anchors": ["py_factorio_blueprints/entity.py: Entity.__init__, EntityName", "py_factorio_blueprints/entity_mixins.py: __init__ and descriptors of every class and of every ControlBehavior", "py_factorio_blueprints/blueprint.py: BlueprintLayer.make, Blueprint.load"]}
{"id": "C89", "title": "A refused import leaves the blueprint as it was", "statement": "If load raises an exception, the blueprint is as it was before. False: label, version and icons are already the new ones, and the entities before the refused one stay in the blueprint. What holds: data that are no object change nothing; the schedules of all blueprints stay as they were; a refused label colour or icon leaves entities, wires, tiles, schedules and all other blueprints as they were; no import, refused or not, takes an entity out of any blueprint or changes one but for its exported number; and if an entity is the first thing to be refused, exactly the ones before it are in the blueprint, at its end, in the order of the data, as make would have made them, while wires, tiles, schedules, all other entities and all other blueprints are as they were; and if all entities are good, they are all in the blueprint, in order and numbered, whatever is refused after them.", "quantifier": "all data, all worlds and blueprints, all places of the refused entity", "why_tests_cant": "tests check that bad data raise, not the state that is left; the state depends on the place of the bad part and on what was in the blueprint before", "anchors": ["py_factorio_blueprints/blueprint.py: Blueprint.load, BlueprintLayer._load, Blueprint.parse_connections"]}
{"id": "C90", "title": "A call that raises leaves everything as it was", "statement": "If a call of the API raises an exception, all blueprints, entities, wires and prototype data are as they were before the call. False of sixteen kinds of calls, each with a witness: load, parse_connections, rotate of a blueprint, of its entity layer and of an entity, recenter (which always raises unless the centre is the origin), get_connections and the export of an entity or a blueprint (wires have been turned round before the sort raises), assigning a name (stored before the class is computed), set_label with a bad colour, import_prototype_data, and assigning inventory, infinity_settings, infinity_settings_filters and request_filters (emptied first). True of every other call: making, adding, removing and deleting entities, looking up, connecting, assigning any other setting or control setting, a new control behaviour, mixins, tiles, icons and schedules.", "quantifier": "all calls with all arguments, on all reachable states", "why_tests_cant": "tests assert that a call raises and stop there; that nothing has changed is a statement about the whole state, for every call and every way in which it can fail", "anchors": ["py_factorio_blueprints/blueprint.py: BlueprintLayer.add, BlueprintLayer.remove, BlueprintLayer.__delitem__, BlueprintLayer.make, Blueprint.load, Blueprint.set_label, Blueprint.recenter, Blueprint.parse_connections, Blueprint.import_prototype_data", "py_factorio_blueprints/entity.py: Entity.connect, Entity.rotate, EntityName.__set__", "py_factorio_blueprints/entity_mixins.py: every setter"]}
{"id": "C91", "title": "More prototype data never turn accepted data into refused ones", "statement": "If the prototype data are extended, so that every known entity keeps its type and every known recipe and signal stays known, every entity that could be made can still be made from the same data, and all data that could be imported into a blueprint without entities can still be imported; if moreover every signal with a type keeps having one, what was imported and could be exported still can; and a setting that an entity takes is taken by the same entity made with the extended data. Appending to any of the five tables with append=True is such an extension, unless it gives a known entity another type; that this exception is needed is shown by an assembling machine that becomes a belt.", "quantifier": "all data, all prototype data and all extensions of them, all worlds and blueprints with the same custom mixins, at most one for each type and none that changes the control behaviour", "why_tests_cant": "a statement about every blueprint and every extension of the tables; tests run with one set of prototype data", "anchors": ["py_factorio_blueprints/blueprint.py: Blueprint.set_entity_prototype_data and the four methods like it, Blueprint.load, BlueprintLayer.make", "py_factorio_blueprints/entity.py: EntityName.__set__", "py_factorio_blueprints/entity_mixins.py: SignalName, RecipeName and every __init__", "py_factorio_blueprints/blueprint.py: Blueprint.to_json"]}
