# Design

A formal model, in Lean 4, of pyavb (`/repo/src/avb`: Avid bins read, edited and written in Python).
The code was read as text; nothing of it was run. `properties.jsonl` lists the properties,
`MANIFEST.json` the theorems of each, `seeded/LOG.jsonl` the wrong programs the theorems were tried on.

## 1. Layout of `lean/Verif`

| Directory | Content |
|---|---|
| `Model/` | the code, function by function; every definition cites file and lines |
| `Spec/` | what is meant, written apart from the model: stored form of an object, renumbering, block structure, wire format grammar, conditions for saving again, agreement of the two readers, content of a copy |
| `Lemmas/` | the proof machinery: one compositional predicate per question, then one lemma per class |
| `Props/` | the property theorems `Cnn_*`, with small specifications and concrete examples beside them |

## 2. How the code is modelled

* **Exceptions are values** of type `Err`; all functions are total.
* **Readers** are `Rd α = Bytes → Except Err (α × Bytes)`: what is read and what is left. The position in
  the Python buffer is the unread rest. `f.read(n)` gives fewer bytes at the end and everything for
  negative `n`, as in Python; `struct.unpack` of too few bytes raises.
* **Writers** are `Wr α = Except Err (α × Bytes)`: the bytes appended.
* **Classes** are structures with the Python property names. Inheritance is structure extension,
  `super().read` a call of the base reader. A property that may be missing is an `Option`. Classes whose
  `read` tests `class_id` to decide on the closing byte are split into `readBody` and `read`.
* **All 66 registered classes** are modelled, both directions (`Model/Attributes`, `Bin`, `Components`,
  `TrackGroups`, `Essence`, `Misc`), and put together as the sum type `Obj` with `Obj.readAs`,
  `Obj.write` (`Model/Obj`).
* **References** are numbers, 0 for `None`. A writer has the map from instance ids to chunk numbers
  (`ref_mapping`), a reader the length of the chunk table (`check_refs`; off: `Model/Unchecked`).
* **Text** is `List Char` with the whole Mac Roman table and UTF-8.
* **Doubles** copied by `struct` are 64 bits without meaning. **Edit rates** are rationals, with rounding
  to 53 bits, ties to even, after every operation (`Model/Rate`). **Curves** are over the reals with a
  rounding function `fl` as a parameter after every operation (`Model/Keyframes`).
* **Files** (`Model/File`): walking references, writing header and chunks, patching count and root,
  opening, the chunk table, looking an object up. The recursion limit of Python is explicit fuel.
  A crash is a prefix of the write operations, or of the bytes of one (`Props/Crash`).
* **A running program** has two models. `Model/Session` has Python objects, the weak cache, the table of
  modified objects, lists that know their owner or not, and the garbage collector; contents are
  abstract. `Model/Work` has the real contents and ends in a save, `Model/Closed` what goes on after `close`,
  `Model/ClosedList` listings then.
* **Copying** (`Model/Copy`) is on a heap of Python objects with cells for mutable values. `Model/CopyObj` has
  the copy with the real contents of all classes, as events of `Model/Work`.
* **New files** (`Model/NewFile`): the constructors run by `setup_empty`, `create.Composition` and
  `add_mob` as events of `Model/Work`. Default values are literals there; `Model/Defaults` has the sharing of
  the mutable ones. **The factory** (`Model/Factory`): the one `class_name` it keeps.
* **Reference lists, attribute sets, bin lookup, dependency listing, sequences, names, mob ids,
  the source of a clip** have a model each (`RefList`, `AttrDict`, `BinFind`, `Depends`, `Timeline`,
  `Names`, `MobID`, `Resolve`, `Dates`).
* **Attribute access** (`Model/Attrs`): a table of all class statements with base class, properties and other
  names, and `__setattr__`, `__getattr__` on top of it.
* **Accelerated readers** (`Model/Fast`, from `_ext_core.cpp` and `_ext.pyx`): buffer and position, reads
  past the end give zeros, return codes that callers ignore, the state kept at the moment of an error. Undefined
  behaviour (a step outside of a buffer or array) is a value of its own, `Stop.wild`. `Model/FastSave` has the
  objects that Python makes of the dictionaries, with the order of their entries, and a save of them;
  `Model/FastWork` has whole work sessions on files opened with them.
* **Properties without value or with any value** (`Model/Unset`, `Model/AnyValue`): the writers once more, with the
  reads of properties marked.
* **Mob ids of any size** (`Model/RawID`): the `bytearray` itself, of any length, and what an assignment that raises
  leaves in it (CPython's `struct.pack_into` tests the count and the room, then clears the field, then stores the
  values one by one).  Elsewhere a mob id has 32 bytes and a refused assignment leaves it alone.
* **Sequences over objects** (`Model/Nested`): components are looked up with a function from references to an object,
  `None` or an exception, of which `readObject f` is one; `Model/Timeline` has their lengths only. The generator
  `positions` is the list of what it yields with the exception at the end.
* **Dependencies over objects** (`Model/FileDeps`): `dependant_mobs` with `walk_references`, the bin and all exceptions;
  `Model/Depends` has the loop alone.
* **Loops over changing lists** (`Model/IterEdit`): elsewhere an iteration is the list of what it gives; here the
  iterator is a position and calls may come between its steps. Loops are looked at for any number of rounds.
* **Walking changing objects** (`Model/WalkEdit`): `walk_references` as a stack of loops, on a heap of objects and lists
  that may be another one at each step. All objects can be loaded; a value is an object, a list or without references.
  The iterators of `OrderedDict` and of plain dictionaries are those of CPython 3; what the latter does when as many
  keys were added as deleted is left open (`Out.unknown`).
* **Positions of a changing sequence** (`Model/PosEdit`): `positions` step by step, with any state of the sequence at
  each step.
* **Reading properties** (`Model/PropGet`): property data as stored values in order; each way to read one with the
  references it looks up.
* **File positions** (`Model/Embedded`): elsewhere a file is opened at its beginning; here the position of the file
  object is a parameter and all positions are absolute.

## 3. Proof machinery

Each question about all classes is a predicate closed under the combinators of readers and writers, so
that the proof for a class follows its program text.

| Predicate | Says | Used for |
|---|---|---|
| `RT w r v` | what `w` writes, `r` reads back as `v`, leaving the rest | C06, C12 |
| `Rel` | two writers produce equally long output and fail together | C07 |
| `Stable`, `Stripped`, `WImp` | writing what was read back gives the same bytes | C08, C48 |
| `Mono`, `Strict`, `Firm` | what a reader does on a prefix or an extension | C09, C45 |
| `Post` | what every value read satisfies | C48 |
| `Framed`, `Closed` | blocks and closing byte | C52 |
| `Reads F r` | `r` accepts exactly the format `F` | C53 |
| `Renum` | renumbering references commutes with saving | C49, C50 |
| `RaisesIn E r` | the exceptions `r` can raise are in `E` | C64 |
| `Inside` | every reference read is below the length of the chunk table | C65 |
| `Capped` | with fewer objects in the file a reader does the same or raises `ValueError` | C34, C65 |
| `Needs`, `Conv`, `Swp` | a writer with missing or arbitrary property values against the plain one | C74, C77 |
| `Fwd`, `Safe`, `Quiet` | accelerated readers move forward, stay in the buffer, keep the return code | C63 |

Objects as they come back from a save are described by `Obj.norm c` (references mapped, texts without
outer NULs, rates as stored, incomplete groups dropped); the specification of this is `Spec/Stored`,
which says per class what a stored object looks like and what it keeps.

## 4. Overview by property

| Property | Method |
|---|---|
| C01–C04 | arithmetic of base 256; the Mac Roman table checked as a whole and lifted |
| C05 | loop invariant of the scaling, error analysis; witnesses by evaluation |
| C06–C11, C38–C40, C42 | compositional predicates over all classes; witnesses where objects are lost |
| C12–C17, C43 | induction on the traversal, invariant on the reference map, then C06 |
| C18–C20 | invariant over all histories with garbage collection; witnesses of lost edits |
| C21, C22 | refinement to lists and to insertion ordered dictionaries over all call sequences |
| C23, C24, C46 | induction on components and on half frames |
| C25, C26 | invariant of the binary search; real analysis for the curves |
| C27–C29 | positional arithmetic, list lemmas on URN texts; exact set of ids whose URN is ambiguous |
| C30–C32 | invariants over histories; well-founded order for termination, with the converse |
| C33, C34 | simulation between the two readers; witnesses of damage accepted |
| C35, C44, C45 | case analysis over all crash points and cuts |
| C36 | induction on the recursion of copying with a correspondence of heaps |
| C37, C41 | tables over all integers and texts |
| C47–C51 | everything that loads from any bytes, saved again, edited, in any order of work |
| C52, C53 | block structure, and the grammar of accepted payloads |
| C54 | the words pyavb writes and never reads |
| C55 | invariant over all histories of work and saves, with the files on disk |
| C56 | induction on the scan of the table; C51 for the state of the cache |
| C57 | C51 from the empty file; length and range of every field the constructors fill in |
| C58 | invariant over all histories of accesses and calls on the factory |
| C59 | the search as the first track that decides; C30 for the bin |
| C60 | an arbitrary time zone; everywhere else dates are timestamps, which `C60_objects` justifies |
| C61 | facts about the whole table of classes, evaluated by the kernel; induction on assignments |
| C62 | induction on the depth of the copy; a law per class for taking out and putting back references; C51 |
| C63 | memory safety of the accelerated readers, compositional; witness of the one gap |
| C64, C65 | compositional predicates over all readers; witnesses of each exception |
| C66 | the work after `close` as work before it; C51, and C35 for the failed save |
| C67 | invariant on the addresses of the values over all histories |
| C68 | credit argument: every reader pays for what it gives with the bytes it passes; generated per class |
| C69 | C33 and the names each accelerated reader gives, then C12 for the objects made from its dictionaries |
| C70 | a format stated on bytes (`Spec/Layout`); inversion of every step of opening, and of saving |
| C71 | printing as a function of fuel and of the dictionaries being printed (`Model/Repr`); well-founded values, last visit of a cycle |
| C72 | the table of names as data (`Model/Params`), keys as texts of increasing numbers; C12 for saved names, C59 for tracks |
| C73 | the value of a double in units of 2^-1074 is strictly increasing in its bits; rounding picks one of two neighbours |
| C74 | the writers with every read property marked (`Model/Unset`), compared with the plain ones by a compositional relation (`Needs`) |
| C75 | mob ids as objects (`Model/SharedIds`): histories of assignments, copies and changes in place; refinement of C30 while nothing is changed, an invariant of the filled dictionary (keys are the objects of the first items) for what follows |
| C76 | the histories of C51 with the accelerated readers in place of the readers (`Model/FastWork`); C69 for the objects not assigned |
| C77 | the writers with a Python value in every plainly written property (`Model/AnyValue`), compared with the plain writers on the converted object (`Conv`) and with each other (`Swp`) |
| C78 | opening a file object at any position, with explicit positions (`Model/Embedded`); compared with opening the bytes from there on |
| C79 | `AVBChunk.hex` and the function `read_chunk`; dumps are read back by a separate decoder |
| C80 | mob ids as byte arrays of any size (`Model/RawID`); compared with the ids of 32 bytes of C27–C29, and by cases on the size |
| C81 | sequences over objects (`Model/Nested`); the specification is the list of all clips and transitions in a sequence (`Flat`, inductive) and the relation of being inside (`Inside`); C23, C24 carried over |
| C82 | `Model/FileDeps`, as long as nothing is raised in step with the loop of C32 (`rounds_sim`), whose invariant then gives the order at every moment |
| C83 | `Model/IterEdit`: invariant on the position of the iterator for any interleaving; loops by induction on the rounds |
| C84 | `Model/WalkEdit`: stack of loops; locality by an invariant on the loops (`SameFrame`), the walk by induction on the depth; `C84_once` by induction on the steps: a loop over an object ends with its `yield` |
| C85 | `Model/PosEdit`: invariant on the running sum for any history of states; loops by induction on the rest of the sequence |
| C86 | `Model/PropGet`: cases on stored values against a relation (`Gives`, `Fails`); loops by induction on the properties |
| C87 | `Model/Unchecked`; the readers of all classes with tables of two sizes (`Lemmas/Capped`, as for C65), C51 for what a reference leads to; a save as for C66 (`Props/UncheckedSave`) |

## 5. Trusted base

* Lean's kernel and the axioms `propext`, `Classical.choice`, `Quot.sound` (checked with
  `#print axioms`). No axioms of our own, no `sorry`, no `native_decide`, no `bv_decide`.
* The transcription of the Python and C++ text into the definitions of `Model/`.
* CPython's `struct`, `str.encode`/`decode`, `list`, `OrderedDict`, `weakref`, `io` as stated in the
  comments; the Mac Roman table was dumped from CPython's codec.

Not modelled:

* `repr` of helper objects without a class id, traceback output, `tests/`, `examples/`, Python 2 branches, threads;
* `bezier_interpolate_old` (unused), `peek_data`, dump helpers;
* the date text in the header (`strftime`; it is never read), and `fold` of dates, which is dropped;
* infinities and NaN in curves; surrogate code points in texts (refused where C77 applies, never read); case mapping beyond ASCII in URNs;
* values of the wrong Python type in lists, data, ids, dates, parameter values and properties that are combined
  before they are written (all others: C77);
* in `_ext_core.cpp`: allocation failure, the last bit of C `pow`;
* `MemoryError` for files that declare sizes or counts of gigabytes;
* the read buffer of an open handle when its file is overwritten, and when exactly written bytes reach the
  disk within one save (C35 and C44 take all points);
* hash values (C75 holds for any).

## 6. What was found

Places where the code does not do what a user would expect. Each is a theorem (named) or follows from
one directly.

Losing or changing data on save:

* a text of 65535 encoded bytes is written but reads back empty, and the rest is misread (`C03_lost`);
* NULs at the ends of texts are lost, attribute names that differ only in those are merged
  (`C08_nul`, `C22_collision`);
* rates 5994, 599.4 and 5.994 come back as 59.94; 24000/1001 changes with every save
  (`C05_wrong_rates`, `C05_drift`, `C08_drift`);
* incomplete groups of image properties are dropped (`C42_image`, `C42_rgba`); sift settings of a bin
  beyond six are dropped, user parameters of another byte order change (`C40_sift`, `C40_byte_order`);
* a date within the hours that occur twice when clocks go back can move by an hour with any save of the file,
  skipped local times come back changed, microseconds are lost (`C60_moved`, `C60_back`, `C60_skipped`);
* an int given as a value of type double comes back as the nearest float (`C73_saved`);
* the creator version is cut and padded to 30 characters (`C16_creator`);
* an object of another file with an id already in use is silently replaced (`C43_foreign_replaced`);
* edits of plain lists, of lists made by the accelerated readers and of helper objects can be lost to
  the garbage collector, for every object of every file (`C20_list_lost`, `C20_helper_lost`);
* a save to the path that was opened empties the file first: if an object to be saved is not in memory the
  save raises and the file is lost (`C55_own_path_lost`); the same after `close` (`C66_save_fails`);
* with `check_refs` off a reference beyond the table of the file leads to an object made later that happens to get this
  number (`C87_dangling`);
* after `close` a listing by class id raises also if all objects are in memory, and one that was begun before raises even
  if no other object is to come (`C66_list`, `C66_next`);
* a save stopped within the last header update of a larger file leaves a file with another object as
  content (`C44_update_torn`).

Saving what cannot be loaded, loading what cannot be saved:

* selectors with a selected index out of range, plugin effects without exactly one plugin, bin views
  with 32768 format descriptors, parameter clips of unknown type, markers whose colour has not three
  parts (`C40_*`); the plain track group is never accepted on load (`C09_trackgroup`); data descriptors
  are saved only if their last byte is 3 (`C10_unterminated`);
* mob references without mob id, bin references without UTF-8 name, rates of 1e10, more than 16383
  fields, alignments of 2^63 or more load but cannot be saved (`C48_no_mob_id`, `C48_no_utf8_name`,
  `C48_large_rate`, `C48_saves`);
* an audio suite effect stores the legacy words signed: mob ids with a word of 2^31 or more cannot be
  saved (`C48_saves`, `C54_plugin`);
* new objects of 44 of the 66 classes cannot be saved before up to 20 properties have been assigned, which are
  nowhere listed in the code; the save that finds out has emptied the file (`C74_classes`, `C74_new`, `C74_left`);
* assignments are not checked: a float such as 50.0 in an integer property is found out by the save, which has
  emptied the file by then; an empty list or 0 in a text property and the text 'False' in a boolean one are stored,
  as the empty text and as true (`C77_not_integer`, `C77_truth`, `C77_left`);
* cyclic object graphs cannot be saved, listed or copied: the recursion does not end
  (`C15_cycle_never_saved`, `C32_cycle`, `C36_cycle`).

In the interface:

* an essence descriptor accepts the properties of every other descriptor class, as they share one dictionary;
  they are kept in memory and never written (`C61_names`); shape lists accept any name, also misspelled, and
  lose it (`C61_unknown`); `RGBADescriptor.palette` and `MPGPosition.leader_length` are declared and never
  read or written;
* `clear`, `sort`, `reverse` on reference lists do nothing, slices and `reversed` give raw ids, `remove`,
  `in`, `index` and `count` compare raw ids (`C21_ignored`, `C21_slice`, `C21_reversed`, `C21_search`);
  `+=` on a list held in a variable changes it without marking the owner (`C21_unreported`), so the edit
  can be garbage collected;
* `find_by_mob_id` answers from a stale cache, and after one null item silently misses later mobs
  (`C30_stale`, `C30_null`); a mob id changed in place after a lookup (`mob.mob_id.material = ...`) makes the mob
  found under neither the old nor the new id, and can hide another mob of the old id (`C75_lost`); the id object is
  shared with copies and with clips it was assigned to, which change with it (`C75_shared`); `mobs` yields `None` for null items (`C31_raises`);
* a maker kept from `f.create.N` is not bound to `N`: called a second time it makes an `Attributes` for
  every bin, bin view or component class, and after another access it makes that other class
  (`C58_again`, `C58_other`);
* new bins share the default rectangle and colour lists, and new views the default column dictionaries, of
  the class; image descriptors share aspect ratio and line map: an edit in place of one shows in all others of
  the process, and in the new files made after it (`C67_edit_default`, `C67_leak`);
* `iter_class_ids` does not list objects made since the file was opened (`C56_created_missing`);
* `clip.track` raises `AttributeError` if a track without index comes before the wanted one; as it is a
  property of a class with `__getattr__`, the message says that clips have no attribute `track`
  (`C59_search`); the same if the component of a track is an attribute set or list with entries;
* one null component, or one without length, takes the length from a sequence and from all sequences around it; the
  message says that sequences have no attribute `length` (`C81_length_raises`); a sequence inside of itself recurses
  without end (`C81_cycle`);
* a loop over a reference list or over `bin.mobs` sees the list as it changes: adding in the body never ends, removing
  skips every second item (`C83_endless`, `C83_mobs`, `C83_remove`, `C83_pop`), as with Python's own lists;
* adding a property to an object on the way of `walk_references` (setting one that was not there) raises `RuntimeError`
  only when the walk is back at that object, after its present contents were yielded (`C84_raises`); in the last
  property it goes unnoticed if the data is an `OrderedDict`, and not if the object came from the accelerated readers
  (`C84_last`);
* `obj.get(name, default)` loads all properties before the one it is asked for, and raises if one of them cannot be
  loaded, also if the name is not there (`C86_get_raises`, `C86_differ`); `obj.name` does not;
* setting the length of a transition in a loop over `positions` leaves the positions that follow as they were
  (`C85_transition`);
* a clip owns the times `(start, end]` in `nearest_component_at_time` (`C24_boundary`);
* curves: control points at equal times divide by zero, degenerate Bezier pieces raise `NameError` or
  `ValueError`, `integrate` raises `UnboundLocalError`/`TypeError` on short spans
  (`C26_duplicate_times`, `C26_bezier_fails`, `C46_too_short`);
* a refused assignment to `Data1`, `Data2`, `Data3`, `SMPTELabel` or `Data4` of a mob id nevertheless changes it: the
  field is zero, or holds the values before the bad one and zeros (`C80_data1_refused`, `C80_values_refused`).  Bytes of
  any number are taken by the constructor; such ids cannot be written, and `<`, `==`, `>` may all fail between them
  (`C80_order`).
* mob ids: integers wrap modulo 2^256, malformed URNs are accepted or half applied, some ids share
  their URN with another (`C27_set_get`, `C28_sloppy`, `C28_half_assigned`, `C28_collision`);
* the constructor of mobs ignores the name and raises `TypeError` for unknown types
  (`C41_name_ignored`, `C41_unknown`); a media kind of unknown code cannot be set by its own name
  (`C37_copy`);
* an AudioSuite effect loaded from a file, or anything that refers to one, cannot be copied: the constructor of
  its plug-ins wants an argument that `copy` does not give (trackgroups.py:417; `C62_plugin`, `C62_under`); null
  references in lists and attribute sets raise too (`C62_ends`); copies of mobs, source clips and bin views gain
  the properties that the constructor sets where the original has none (`C62_copy`), and the attributes made by
  constructors stay registered though nothing refers to them;
* copies share mob ids and dictionaries with the original and duplicate what is used twice
  (`C36_shared`, `C36_shared_mob`, `C36_duplicates`);
* the accelerated readers accept damage that the portable ones report, read negative numbers as unsigned
  and keep outer NULs (`C34_*`, `C33_differences`);
* a colour image descriptor whose valid box is cut short by a wrong tag leads `int_array2dict` (`_ext.pyx:334-342`)
  to index past the end of a vector, undefined behaviour on bytes of a file (`C63_cut_box`);
* the accelerated readers go on with zeros after the end of the data, so that an image descriptor of 57 bytes
  is accepted with up to 2^30 - 1 entries in its line map (`C68_accelerated`, `C68_accelerated_file`); in both
  variants the table of positions is allocated from the object count in the header before the file is looked at
  (file.py:172), so that a short file can ask for 2^32 entries before `struct.error` is raised;
* a negative media kind, usage code, component width or control point value is loaded by the accelerated readers
  as a large number that no writer accepts: such a file can be opened, but no longer saved (`C69_negative`,
  `C69_negative_file`); the objects of a saved file have another order than without them, since tracks come last
  in the dictionaries (`C69_order`);
* the word that repeats the byte order may contradict it, the content may be a number without an object, and a
  file without objects may end within its creator text: all of these open without an error (`C70_opens` and its
  example); a format descriptor of a bin view of more than 32765 bytes can be read but not saved, since its length
  is written a second time in a short signed field (`C70_descriptors`);
* a composition whose type is not 1, 2 or 3 can be loaded and saved but not printed: `str(mob)` raises
  `ValueError` (`C71_untyped`), also where it is printed inside of attributes or as value of a parameter.  A
  parameter whose value leads back to itself cannot be printed at all (`C71_endless` and its example), while
  attributes that hold themselves can;
* `chunk.hex()` of a big endian file prints class id and size as a little endian file has them (file.py:44-45), so
  the dump shown for an object that cannot be loaded is not what stands in the file (`C79_big`).

## 7. Trying the theorems on wrong programs

`seeded/LOG.jsonl` has a line per attempt: a definition of the model edited as a realistic mistake would,
the claim it breaks, the theorems that then failed. Edits that no theorem noticed led to a stronger
theorem (field `tightened`) or turned out to leave the behaviour unchanged (said so in the line).
Groups of properties that came out of this: C33 per field, C42, C47, C52, C53, C54.

## 8. The model on real files

The model can be run. The programs in `samples/` (copy one to `/tmp/x.lean`, then in `lean/`:
`lake env lean --run /tmp/x.lean FILES`) feed it the sample data in `/repo/tests`, read as data. This proves nothing; it is evidence
that the transcription is right. Results:

* `check_objects`: all 79 chunks of `tests/chunks` (44 classes) are read to the last byte, written back to the
  same bytes, and survive big endian and back. The same for every object of the 14 `.avb` files
  (4239 objects).
* `check_save`: in these files the accelerated readers give objects that write the same bytes; a
  saved copy of each of the 13 retime files has as many objects and bytes as the original.
* `check_curves`: `Model/Keyframes.lean` with `Float` for `ℝ` and no further rounding meets the bound of
  `tests/test_retime.py` (1e-7) on all 13 retime files; the largest average error is 2e-11.
* `compare_calls.py` (Python, reads both sources as text): for every `read` and `write` method the sequence of
  primitive reads and writes, base classes and helpers expanded, against that of the Lean definition of
  the same name. What differs is the closing `0x03` (a base class writes it only when it is the outermost class;
  `readBody`/`writeBody` in the model), literals that are match patterns or helper arguments in the model,
  and loops over a fixed number of equal fields.
