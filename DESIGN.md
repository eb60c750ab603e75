# Formal model of pyaaf2 – design

The model is written in Lean 4 (4.33.0) under `lean/Verif`.  `lake build` in `lean/` checks everything.

## Trusted base

* Lean's kernel.  Every theorem depends on at most `propext`, `Classical.choice`, `Quot.sound`
  (no own axioms, no `sorry`, no `native_decide`, no `bv_decide`).
* Mathlib's definitions of the real numbers and their functions in C63 and C64, and of the rational
  numbers in C66; its theorems are
  checked by the same kernel.
* The hand translation Python -> Lean.  Every definition cites the file and lines it mirrors.
  Exceptions are values (`Except Err`), mutable Python objects are explicit state.
* The Python standard library pieces the code calls (`struct`, `bytearray`, `dict`, `list`, file
  `seek/read/write/truncate`) are modelled by small Lean functions in `Model/Bytes.lean` and `Model/FileImage.lean`
  with their documented behaviour.

Working on the source: it was read as text.  One slip: a helper script of this work was once started with the
working directory in `/repo/src/aaf2`, where `types.py` hides the Python module of that name; the interpreter
imported that file, stopped with an ImportError, and left `__pycache__/types.cpython-311.pyc`.  That file and its
directory were removed again; no other file of `/repo` was touched, and nothing here relies on that run.

## What is modelled and what is not

Modelled (see per-property table): `auid.py`, `mobid.py`, the codecs of `utils.py`/`types.py`/`rational.py`,
`core.py` property streams, the collections of `properties.py`, `cache.py`, the compound file of `cfb.py`
(header, DIFAT, FAT, mini FAT, sector allocation, streams, directory red-black trees, directory
operations, close and reopen), pid and class logic of `metadict.py`, the pure algorithms of
`mobs.py`, `components.py`, `misc.py`, `video.py`, `mxf.py`, `ama.py`, mode handling of `file.py`.

Not modelled: the static dictionaries in `model/`, audio import through the `wave` module, rounding
of floating point numbers in `interpolation.py`, logging, Python 2 branches, `dump`/`repr` output, operating system errors.

## Method

* Codecs: total functions on `List UInt8`; the statement is a round trip.
* State machines: `State`, `step`, invariant proved for the initial state and kept by each step, then
  lifted to all runs by induction on the list of operations.
* Refinement: an abstract specification (list, map, byte array, tree of names) written without any
  helper of the model, and an abstraction function/relation commuting with each step.
* Where the code does not have the property: a theorem proves the negation on a concrete reachable
  state (`..._counterexample`), and the strongest true part is proved with suffix `_partial`.

Property theorems live in `Verif/Props/*.lean`, the code in `Verif/Model/*`, specifications that do not
mention the model in `Verif/Spec/*`, helper lemmas in `Verif/Lemmas/*`.
Next to each property theorem an `example` instantiates its hypotheses on a non-trivial case.

## Plan per property

| id | modelled | proof |
|----|----------|-------|
| C01 | `AUID` as 16 bytes, all constructors and accessors, hex text as characters | computation on 16 symbolic bytes, base-256 and base-16 digit lemmas |
| C02 | `__eq__`, `__lt__` of AUID, MobID | injectivity of the int, big-endian order lemma |
| C03 | MobID record as 32 bytes with setters; dicts with missing keys | slices |
| C04 | urn getter/setter on characters | exact characterisation (iff) + counterexample |
| C05 | UTF-16 encoder/decoder on code points, NUL split, arrays | induction on the text |
| C06 | `struct` pack/unpack for 8 integer formats | base-256 digits, two's complement |
| C07 | enum tables as association lists, name/code lookup, register | induction on the table |
| C08 | array/set codecs parametric in an element codec | induction; counterexample for fixed arrays |
| C09 | inductive universe of type definitions with decode/encode | mutual induction on types |
| C10 | AAFRational integer paths | case analysis |
| C11 | indirect codec over a type dictionary | composition with C09 |
| C12 | property table stream | induction on the table |
| C13 | path table stream, `weakref_index` | induction; invariant on histories |
| C14 | the four index codecs | induction |
| C15 | `squeeze_name`, `mangle_name`, index names on `List Char` | suffix analysis |
| C16 | circular list as arena of nodes + dictionary | refinement to a recency list |
| C17 | Floyd loop, step by step | lasso argument, fuel bound proved sufficient |
| C18 | allocator state with ghost ownership | inductive invariant |
| C19 | same | invariant on free list |
| C20 | same, with DIFAT tables | inductive invariant |
| C21 | `Stream` methods over file bytes | refinement to a byte array with position |
| C22 | same | frame part of the refinement |
| C23 | sector cache | invariant |
| C24 | 128-byte record | slices |
| C25 | arena of entries, top-down insert | zipper refinement, red-black invariant |
| C26 | top-down remove | zipper refinement for contents; counterexamples found by running the model |
| C27 | all directory entries with links, child ids, parents, listing cache, free ids; paths as texts (`Model/DirTree`) | refinement to a map from paths (`Spec/PathTree`) for any history, up to the first call that is listed as `Odd` or whose insertion raises (C26) |
| C28 | close + open on bytes | round trip under the allocator invariant |
| C29 | header codec | round trip |
| C30 | dir id free list | invariant |
| C31 | mode gates (`Model/Modes`), every call of `Model/Graph` | each call keeps the container when read-only; induction over programs |
| C32 | objects, property entries, vectors with key list and object map, storages, manager tables, save, close, open, collection (`Model/Graph`) | refinement of every program to a tree of Python values (`Spec/ObjectGraph`) |
| C33 | sets in the same model | the same refinement |
| C34 | strong references in the same model | counterexamples; the tree invariant of the specification holds after every program |
| C35 | `next_free_pid` | invariant, counterexample at exhaustion |
| C36 | parent chain walk | induction on a rank |
| C37 | slot id loop | counterexample + partial |
| C38 | positions, index_at_time | induction |
| C39 | binary search, add_keyframe | invariant + counterexample |
| C40 | DFS with explicit stack | invariant on reachable set, ranking |
| C41 | frame splitter | induction |
| C42 | BER, KLV, tags | induction |
| C43 | chunk search | induction |
| C44 | tagged value list | refinement to a map |
| C45 | save/close/exit effects in the same model | what is on disk is kept by every call except save and close; opening rebuilds the saved tree |
| C46 | walk and rmtree in the same model | induction on the depth; the visits and the freed ids are compared with the map of paths; the sectors are in C48 |
| C47 | `copy` within a file and into another file on the same objects (`Model/GraphCopy`, `Model/GraphCopyTo`); the names of index streams (`Model/IndexName`) | induction over the depth: the copy looks like the original to any depth (`Spec/ObjectLook`) and shares nothing with it; case analysis for the names |
| C48 | the container as a whole (`Model/Volume`): the tree of C27 and the session of C28 together; after each call every entry is encoded into its record, opening decodes tree, types, names and links from the records | refinement of `Spec/Volume` (paths, byte arrays, stamps): each call keeps a relation between records, memory tree, sectors and the specification; induction over the history |
| C49 | reading and writing the properties of an object, its index streams, class id, stream properties and the path table, on the bytes of the container of C48 (`Model/ObjectStore`) | refinement of `Spec/ObjectStore` (what is stored at each place): the generated names keep the entries of all objects apart (C15), the encodings are those of C12-C14, the container is C48; induction over the history |
| C50 | the objects of C32-C34 over the container of C49: each call of a program on objects notes the calls that it makes on the container (`World.log`), these run on the bytes; walking the objects of a file (`Model/ObjectReader`) | two refinements joined by `Spec/Shelf` (class and properties at each place): the log of every program fits the shelf, C49 gives the shelf from the bytes; the walk is compared with the objects of the specification by induction on the depth; the listing is shown to determine the objects |
| C51 | opening any bytes that are a compound file (`Model/OpenVol`); the format is a separate description of bytes (`Spec/CompoundFile`, after [MS-CFB]) | the description of a file is turned into the state of the program after opening, field by field, and shown to be in the relation of C48 to what the file stores; then C48 applies.  For mode `'rb'` (`Model/Reader`) the description also has the other mark for a missing start (`Shown`): the program then has a state that differs from that of C48 in this mark only, and calls that only look do not see it |
| C52 | closing (`Model/OpenVol`) after any history | from the relation of C48: a description of the bytes that `close` writes is built from the tables, chains, records and trees, and shown to satisfy `Spec/CompoundFile` |
| C53 | weak references on top of `Model/Graph`: `WeakRefProperty`, `WeakRefArrayProperty`, the table of paths and its stream, resolving along a path (`Model/WeakRef`) | refinement, for every call, of a table of keys that are looked up in the collections (`Spec/WeakRef`); then all programs by induction |
| C54 | `MetaDictionary`, `ClassDef`, the built-in class tables, properties of objects by name (`Model/MetaDict`, `Model/Builtin`) | refinement, for every call, of classes with named properties and objects with values by name (`Spec/MetaDict`), with the invariant that the properties of an object have distinct numbers; then all programs by induction; opening files of other applications as a refinement that renumbers |
| C55 | `AAFObject.copy` to another file, `register_external_classdef` (`Model/MetaCopy`, on top of `Model/MetaDict`) | refinement, for every call on a list of files, of copying values by name (`Spec/MetaCopy`); the invariant adds that numbers below 0x8000 are those of the built-in tables, and how many numbers are left; then all programs by induction |
| C56 | `register_external_typedef`, `register_external_classdef`, `register_typedef_model` with all tables of the library, `copy` and `register_element` of the definitions, members of records by name (`Model/TypeDict`, `Model/TypeLibrary`, values as in `Model/Types`) | `Spec/TypeDict` says what an identifier means without names and objects; an invariant (names of known types, dictionaries only grow) over all histories of requests, then induction on the depth of the type that is brought |
| C57 | `SourceClip.walk`, `mob`, `slot`, `slot_at`, `create_source_clip` over mobs with slots whose segments are sequences or single components (`Model/Walk`; `nearest_component` from C38) | `Spec/Source` gives places (mob, slot, time), what a track shows there and where a clip leads, with no reference to the code; induction on the chain; a rank for the end of the walk |
| C58 | `short_name`, `lookup_def` and `register_def` of the dictionary with the library's data, container and codec definitions (`Model/Defs`) | names as a prefix and a rest; a search that only one entry satisfies; the library's tables are checked completely by the kernel |
| C59 | `import_rawvideo_essence`, `import_dnxhd_essence`, `import_audio_essence`, `export_audio` (`Model/Import`, DNx splitting from C41) | reading in pieces is characterised by position (piece k is the bytes from k times n); the rest is arithmetic and C41 |
| C60 | `MXFFile` (reading the header partition, primer, sets), `link` of packages, tracks and segments, `link_external_mxf` (`Model/Mxf`, packets and tags from C42, identifiers from C01 and C04, definitions from C58) | `Spec/Mxf` says with relations on sets and tags, after SMPTE 377, which mobs a header describes, and how a file is made of packets; an invariant of the loop over the packets gives the table of objects, induction on the description gives the segments for every depth that is large enough |
| C61 | `WeakRefProperty.copy`, `WeakRefArrayProperty.copy`, `Dictionary.update` (`Model/WeakCopy`; `weakref_index` from C13) | `Spec/WeakCopy` says what a copy is by reading its references in the other file; one postcondition (nothing changed, what is new is from the first file, the result) is carried through all calls, by induction on the depth; `update` succeeds by induction on what it has gone through |
| C62 | `create_media_link` for files that are not MXF files, descriptors (`Model/MediaLink`; slot ids from C37, clips and `walk` from C57) | `Spec/MediaLink` lists the tracks that the metadata describes; closed forms of the three loops by induction, with the ids 1, 2, … as invariant; what is shown is stated with `Spec/Source` of C57 |
| C63 | `value_at` and all of `interpolation.py` but the unused `bezier_interpolate_old` (`Model/Interpolation`, over the real numbers; the search is C39) | `Spec/Interpolation` has de Casteljau's construction, the cut of handles and the slope of a spline; the four cases of the cubic equation are shown to list exactly its solutions; existence by the intermediate value theorem, one value because the slope of the time is a mean of four positive terms; the bound of the values by convexity |
| C64 | `generate_offset_map`, `integrate_iter`, `mc_trapezoidal_integrate` (`Model/OffsetMap`, over the real numbers) | `Spec/OffsetMap`: offsets as a function of the half frame, with a start value and a recurrence; closed form of the loops by induction |
| C65 | `StreamProperty`, `attach`, `detach`, `copy`, `__delitem__` of objects with streams, `save`, `close`, `__exit__`, `remove_temp` (`Model/StreamProp`) | `Spec/StreamProp`: objects with byte arrays, no containers, places under `/tmp` or names; refinement: each event keeps a relation between the two, so every program has the answers of the specification; the streams of the closed file follow from the relation |
| C66 | `AAFRational(text)` with the format of `fractions`, `AAFRational(float)` with `limit_denominator` (`Model/RationalText`) | `Spec/RationalText`: how numbers are written and their values in ℚ; matching is shown to accept just these texts, with the value by cases; the continued fraction has an invariant (determinant ±1), from which any fraction that is closer has a larger denominator |
| C67 | `MasterMob.import_dnxhd_essence`, `import_audio_essence` with the source mob's, `create_essence`, `create_timeline_slot`, `create_source_clip` (`Model/MasterImport`, with the models of C37, C57, C59) | `Spec/MasterImport` says what an import has to leave in a file; one import leaves it, every import (also a failing one) keeps what was there, induction over the imports |
| C68 | `AAFFile.save`, `close`, `AAFObjectManager.write_objects`, `add_modified`, `read_object` with its cache, `validate`, `write_properties`, `attach`, `detach` (`Model/Saving`) | `Spec/Saving` is a map from paths to values, without cache and disk; every call refines it (invariant between memory, cache and streams), induction over the history; a refused save is a bisimulation: files that differ only in the streams of changed objects give the same results |
| C69 | `AAFObject.get`, `__getitem__`, `__delitem__`, `__contains__`, `getvalue`, `Property.value` and its setter, `add_pid_entry`, `remove_pid_entry`, with property objects as places in a heap (`Model/Handles`) | `Spec/Handles` has names, values and which property holds a name; invariant between heap, entries and it, induction over the calls; for programs that keep nothing the object is a map |
| C70 | `ContentStorage.mobs`, `toplevel`, `mastermobs`, `compositionmobs`, `sourcemobs`, `essencedata`, `mob_id` and its setter with `swap_unique_key`, `SourceMob.essence`, `EssenceData.mob`, `SourceReference.mob`, `write_index` (`Model/Content`) | `Spec/Content` has items and which of them are in the file, and no keys; invariant that the keys are the ids, induction over the calls (`C70_history_partial`); a weaker invariant for every program (`C70_kinds`); counterexamples |
| C71 | `decode_utf16be`, `decode_indirect_value`, `decode_rational`, `decode_video_line_map`, `decode_pixel_layout`, `decode_timestamp` (`Model/MxfValues`) | `Spec/MxfValues` stores values after SMPTE 377, with its own UTF-16 and calendar; reading gives what was stored, by induction over texts and layouts (`C71_name`, `C71_text`, `C71_layout`, …); counterexamples |
| C72 | `PropertyDef` with its getters and setters, `ClassDef` (name, id, flag), `add_string_property`, `add_bool_property`, `add_u16le_property`, `add_auid_property`, and whether a changed definition is written (`Model/PropDef`) | `Spec/PropDef` is a record of six fields; invariant that entries, copies and file agree with it, induction over the calls (`C72_history_partial`); what is refused (`C72_refused`); counterexamples |
| C73 | the writers and readers of `Model/PropStream` (those of C12, C13, C14) | `Spec/StreamLayout` gives each stream as a table of fields, without the model; writing gives exactly these bytes and reading them gives the value back. That the tables agree with the published container specification is not checked (it is not in the sandbox) |

## Results and findings

Simplifications that hold throughout the compound file (C18-C23, C28, C30):

* The file is a byte list; reading past its end gives fewer bytes, writing past its end fills with 0.
* A file that would need sector numbers above MAXREGSECT ends in the error `outOfRange`; every theorem
  about histories says "or `outOfRange`".
* One `Stream` object per entry.  With two on the same entry the property is false
  (`C22_two_handles_counterexample`).
* `truncate` is called with a size that is not negative.
* The flush of modified directory entries when there are more than 128 (cfb.py:669-670) is an operation
  that may happen at any moment, so the theorems hold for any flush policy.
* Sessions begin with a new file; `reopen` is `close` followed by opening with `'rb+'`.  Files made by
  other programs are the subject of C51 and C52.
* The names and links of entries are opaque bytes in the sessions (C28); their meaning is the subject
  of C25, C26 (one directory) and C27 (the whole tree).  C48 puts both together: names and links are
  encoded into the records and decoded when the file is opened.  In `Model/Volume` all entries are written
  to their records at the end of each path call; the code marks those that changed.  C48 ends at calls that
  C27 leaves out, at names longer than a record, and at a raising insertion (C26); U+0000 in names is left out.

Bounds of the description of compound files (C51, C52; `Spec/CompoundFile`):

* A start sector that is not there is `0xFFFFFFFF` in directory records for editing (`Stores`).  With `0xFFFFFFFE`,
  as the format has it, editing is false (`C51_empty_counterexample`, `C51_root_counterexample`); in the header both
  are allowed.  For reading (`Shown`, `C51_browse`, `C51_read_only`) both are allowed everywhere.
* In mode `'rb'` a `seek` after the end of a stream is left out: the code then tries to make the stream longer.
* Every sector in the FAT that is not free is used by something; the whole FAT may be longer than the file,
  sectors of chains are inside the file.
* Sizes are 64 bits; in version 3 files the upper half may be anything, the code does not look at the version.
* Names are ordered by the number of characters; the format counts UTF-16 units (the same in the basic plane).
  A name of 32 units, which the code writes without a zero at the end, is allowed.
* The version numbers in the header, the number of directory sectors and the transaction number are free.
  512-byte sectors are written with major version 4 and the number of directory sectors (C29).
* Balance is not part of the description (it is not part of the format either); `RedBlack` is said separately.

Simplifications of objects in the container (C49; `Model/ObjectStore`):

* A storage is found by its path for each call, where the code keeps the directory entry.
* Files made new by this library, so index names are the generated ones; a property is what is stored of
  it; required properties are not checked.

Simplifications of programs over the container (C50; `World.log`, `Spec/Shelf`, `Spec/ObjectFile`, `Model/ObjectReader`):

* The table of weak reference paths and the objects of the meta dictionary are not in the log; temporary
  storages do not occur.
* Classes, keys and property names are numbers in the programs; a coding gives the bytes and texts.  A
  key is written as the first property of an object.
* A file that is opened read-only and closed writes nothing in the programs; in the log each opening is
  closing and opening with `'rb+'`.
* The walk reads each object when it is visited and has no cache of objects.

Simplifications that hold for objects and references (C31-C34, C45, C47; `Model/Graph`):

* A storage is named by its path; names are constructors, not texts (the texts differ by C15).
* One file (two for copies into another file); the tests on classes and on the root of a value are left out.  No weak references and no
  streams in the graph.  The unique key is a field of the object.
* Garbage collection is a step of its own (`evict`) that may take any written, attached object in no
  variable, at any moment.
* A property object lives only during one call (`obj['Name'].append(x)`), unless it is an entry of the
  object.

Simplifications of weak references (C53; `Model/WeakRef`):

* A weak reference is stored as the bytes of a property of `Model/Graph`; for an array these are the content of the
  index stream.  The fields of a property object are what its bytes say, except in `Fields` (copies).
* References to classes and types are looked up in the meta dictionary and are not modelled; nor are the tests on
  the class of a value and on its file.  Copies into another file are not modelled for weak references.
* A path ends in a set; a path that ends elsewhere or leads over anything but single references is left out.
* Programs are followed up to the first call about which C32 or `Spec/WeakRef` says nothing.

Simplifications of class definitions (C54; `Model/MetaDict`, `Model/Builtin`):

* `Model/Builtin` has the tables of `metadict.py`, `model/classdefs.py` and `model/ext/classdefs.py`, generated from their text; that
  they pass the tests in `Lemmas/MetaCheck` is computed by the kernel over the whole tables.
* Identifiers and names are numbers; types are named by their identifiers and what they encode is a parameter. The loop
  over type definitions when a file is opened (metadict.py:581-607) is left out; it moves values of `CharacterSize` to a new
  number and raises `KeyError` when a type does not have one.
* Saving and reading the definitions themselves and the objects is taken from C12, C49 and C50: a stored class is read
  as it was. The order of the classes in a file is the order in which they were stored.
* Programs are followed up to the first call about which `Spec/MetaDict` says nothing; the comment in `Props/C54_Names` lists these.

Simplifications of copying (C55; `Model/MetaCopy`): values are the bytes of data properties; strong and weak references, streams and the directory of the copy are left out (C50 models copies of trees inside a file), types are identifiers (`register_external_typedef` is left out), the set of classes that were already registered during a copy is left out (registering twice adds nothing). Nothing is said about read-only targets, objects of the class of the root object, classes with the name of another class or another parent in the target, properties with another name or type there, and when numbers may be used up (a new file has 32601, opening takes 98).

Simplifications of bringing types (C56; `Model/TypeDict`): classes are their parent and their properties with types (names and numbers are in C54 and C55); renaming to the name of the class happens in `bring`; recursion is bounded by `fuel` (theorems hold for all amounts above the depth of the type); identifiers and names are numbers (big-endian text), element names are UTF-16 text. Nothing is said about types of references, sets, streams and opaque values that the target does not have, about known types with other components there, and about records with members whose types the target does not find by name.

Simplifications of walking (C57; `Model/Walk`): all slots have one edit rate and origin 0; objects have a number, a length and a kind, and operation groups, selectors and nested sequences count as components that are no clip; the generator is the list of what it yields with the way it ends; recursion is bounded by `fuel` and the result `more` says that it was used up. `C57_walk_partial` is for chains in which (`Simple`) sequences are well formed and not met at a cut, only clips are met inside sequences, and once a clip is met after its start no more sequences follow.

Simplifications of definitions (C58; `Model/Defs`): texts are lists of code points, `str.lower` is any function in the theorems and that of ASCII for the library; a dictionary of definitions is a list in the order of iteration.

Simplifications of imports (C59; `Model/Import`): a file is its bytes, the essence stream the bytes written to it (C21, C22), a WAVE file its format numbers and data (Python's `wave` is outside); edit rates other than the sample rate (`rescale` uses floating point), tapes, offline mobs and the other properties of the descriptors are left out.

Simplifications of linking (C60; `Model/Mxf`): a file is its bytes; the names, dates, usage codes, comments, attributes and descriptors of packages, the names of tracks, pulldown, scope references and still frames are not read (an exception there is not seen), and objects of other classes are only kept; a mob is its kind, id and tracks; recursion is bounded by `fuel`, and the theorems hold for every bound that is large enough; `C60_link_partial` asks for the sizes that SMPTE 377 gives to the tags that are used, lengths and starts below 2^63 and kinds that the library knows.

Simplifications of copied references (C61; `Model/WeakCopy`): an object is the list of all properties of itself and the objects below it, in the order in which they are copied (strong references are C47); both files have the same pids and classes (C55, C56); a type that is missing is taken over as it is (C56), a class that is missing is only copied; classes of values are not tested; the depth is bounded by `fuel`, one level is enough where all definitions are there. The theorems ask that the stored index of every weak reference of the first file is that of the path of its property (`Sound`) and, for `update`, that keys in a collection are different (`Keyed`).

Simplifications of media links (C62; `Model/MediaLink`): the metadata is a list of streams with the entries that are read; of descriptors only kind, rate, length and channels are modelled, not the locator, compression, sampling and sizes (entries that only they read are one flag); the names of mobs, the comment and the tape's descriptor are left out; the kinds are those that C58 finds for `picture` and `sound`; MXF files are C60.

Simplifications of interpolation (C63, C64; `Model/Interpolation`, `Model/OffsetMap`): `float` is the type of real numbers of Mathlib, so rounding, overflow, infinities and NaN are not modelled, and `EPSILON` is exactly 1/10^10; `math.sqrt`, `acos`, `cos` and the cube root are the real functions; the keyframes have the time, value and tangents that `ControlPoint` reads; types of parameters that are not numbers are left out.

Simplifications of stream properties (C65; `Model/StreamProp`): the container is a map from storages and names to bytes (C48 shows that it behaves so); storages are numbers, new ones under `/tmp` never collide; only stream properties of single objects are modelled, other properties appear as a change that marks the object as modified; a write is `open`, one `seek` and one `write`, and every stream is closed before the next event; each property is looked up anew, so that two property objects of one missing entry do not occur; an object that is copied has the same property ids in the other file (C55 has other ids).

Simplifications of rationals (C66; `Model/RationalText`): texts are matched without underscores between digits, digits and blanks that are not ASCII, and blanks around `/` (Python 3.12); a float is its exact fraction in lowest terms, infinities and NaN are left out; the product with the scale at rational.py:41 is exact and not rounded to 53 bits; `Decimal` arguments are not modelled.

Simplifications of imports into master mobs (C67; `Model/MasterImport`): mob ids of new mobs are given and differ from those in the file (C25); names, media kinds and the descriptors except for `Length` are left out; `rescale` (utils.py:221) is exact and not in floats; the master mob is in the file; what a failing import leaves in the file is what is in memory, not what is saved.

Simplifications of saving (C68; `Model/Saving`): properties are pids with bytes; how values, references, indexes and the stream are laid out is in C06-C12, C49 and C50; storages are paths, and a detached object's storage keeps its stream; a required property is registered for one class at a time (for the classes that inherit from it, one `require` each); `write_reference_properties` is left out; the file is open for writing. The garbage collector and the bound of the cache are `evict`, at any time, of any object that is not among the changed ones.

Simplifications of kept properties (C69; `Model/Handles`): properties with data only; values are bytes; names and pids of a class are numbers and different (C54); the file is writeable; unique properties of attached objects (properties.py:153-159), the note that an object was changed (C68) and properties in a file that occur twice are left out.

Simplifications of the content of a file (C70; `Model/Content`): mob ids are numbers, 0 the empty one; of mobs and essence data only class, usage code and id are modelled; programs keep every object (what happens when a member is collected is in C34); the file is writeable; unhashable values and other values with `bytes_le` as ids are left out; storages, local keys and the note that the content storage was changed are in C33, C50 and C68.

Simplifications of values in MXF headers (C71; `Model/MxfValues`): an AUID is its 16 bytes; a rational is its two numbers, not their text; the time that is taken for an invalid time stamp is not modelled further; that a read of too few bytes raises is one error; how the spec stores values is our reading of SMPTE 377, not of code in the repository; which tags hold which values is in `read_tag` of each class and not modelled.

Simplifications of definitions as objects (C72; `Model/PropDef`): an AUID is its 16 bytes; a new definition is put into a class of the file at once; nothing else marks it as changed (writing through `pdef['Name']` does, and is C68); how entries become bytes is C50; `None` as name or pid and values that are no texts or numbers are left out; parent and properties of a class are in C54.

What the code does not do (each shown by a theorem on a concrete case):

| id | finding |
|----|---------|
| C01 | `AUID(hex)` accepts 32 characters with blanks and then holds 15 bytes |
| C03 | `MobID(int)` drops the bits above 256 |
| C04 | the URN form loses a set of MobIDs, described exactly |
| C05 | a string array entry with U+0000 is split |
| C07 | registering an element with a code of 64 bits or more raises and leaves the table unreadable |
| C08 | a fixed array of n integers reads n+1 elements; string arrays are refused for `aafCharacter` |
| C13 | a path containing id 0 is cut when read |
| C15 | property names outside the basic plane can overflow 31 units |
| C16 | a cache of size n holds n+1 entries |
| C21 | `truncate` to a larger size shows old data |
| C23 | `write_dir_entries` leaves a stale sector in the cache |
| C24 | setting the modify time raises `TypeError` |
| C26 | after removals a creation can raise (cfb.py:912 takes the wrong sibling) |
| C27 | names that differ in case can both be created, then removing raises; `move` into itself detaches a storage, `move` to a long name loses the entry; `rmtree('/')` frees all entries and raises while they are still listed; `//` in a path gives two entries with one name; a trailing `/` gives an empty name; `exists` raises below a stream; `path()` stops at a storage called "Root Entry" |
| C29 | files with 512-byte sectors are written with major version 4 (remark, read off `newInfo`) |
| C31 | `del obj[name]` in a read-only file raises after the property has been removed in memory |
| C32 | an index below -len means the first member; `insert` at a negative index, beyond the end or into an absent list is wrong; `extend([x, x])` raises after damage |
| C33 | changing a key to that of another member drops an object; the key change of a member of a detached set is misfiled |
| C34 | an object can be shared under the same name, shared by detached owners or through `insert`; a raise under another name comes after the damage; `value = [attached]` empties the list; `value = None` leaves the object attached; after a replaced object is collected and read again two objects have one storage |
| C35 | when ids run out an id outside the range is given; explicit ids are not checked |
| C36 | a cycle in the class table never ends; `unique_key_size` tests inheritance in the wrong direction |
| C37 | gaps in slot ids lead to a duplicate |
| C38 | at a cut the previous component is returned; a nested scope counts as length 0 |
| C39 | a keyframe before the first one breaks the order |
| C40 | a reference cycle never ends |
| C42 | `round_to_kag` does not round to the grid |
| C43 | any chunk whose id begins with `fmt` is taken |
| C44 | a failed set leaves a name without value; names with U+0000 are never found; `append` does not check names |
| C45 | the class id of an attached object is in the file at once, even when the block fails |
| C47 | `copy()` within a file raises `IndexError` if something was popped from a vector below the object: a local key is used as an index (properties.py:435) |
| C47 | `copy()` within a file gives a vector the index name of this library and the data of the original (properties.py:429, 432); if another application named the index otherwise, the copy cannot be read again |
| C47 | an empty set copied into another file cannot be written (`TypeError`, no index name); an empty vector whose pid differs there is written under two names and cannot be read again |
| C47 | when two properties get the same pid in the other file one is lost |
| C48 | `open(path, mode)` with an unknown mode creates the stream and then raises; a creation that raises because of a long name uses up an entry id, and the record of an earlier, removed entry can be back in the file after closing |
| C49 | if the first save of an object fails (a value of 64 KiB or more) an empty stream is left and the object cannot be read any more; a property name with `/` cannot have objects |
| C51 | writing to an empty stream whose start is `0xFFFFFFFE` (what other applications write) loses the data; closing a file whose root storage has that start and no mini stream raises |
| C53 | reading a weak reference that was never assigned raises `TypeError`; an object that is not in the collection is accepted and then cannot be read; when the key of the target changes the reference is lost; `copy()` puts the pid of the property in place of the pid of the key (properties.py:1016), which is stored when the copy is assigned |
| C54 | a library class that a file does not have can find the wrong definition by number after renumbering (metadict.py:619-622 leaves `propertydef_by_pid` as it was): a value set for `SubDescriptors` of an `MPEGVideoDescriptor` is stored with the type of `SingleSequence` and read under that name; properties registered on `Root` are lost on reopening; after reopening the other names of classes (`Edgecode`) mean the class of the tables, and registering under them removes properties of the file; a known identifier under a new name raises `KeyError` (metadict.py:415); registering a class again takes numbers each time |
| C55 | a property that was added to `InterchangeObject` (or another class without a parent) is not registered in the other file, copying a value of it raises `AssertionError` (metadict.py:492 `class_chain[1:]`); if the other file has another class with the name, that class gets the properties and copying raises `AttributeError`; numbers below 0x8000 that a program gave are taken over even if the class has another property with that number, whose values are then read under the wrong name |
| C56 | a type that comes from another file is named after its class (`self.name` in the `copy` methods is the name of the class, core.py:47-52) and is not found by its own name; because members of records are looked up by the name of their type (types.py:608-620, 644, 735), records of types that the target did not have are read wrongly, and bringing another type later changes records that came before; copying a set type raises `AttributeError`, a weak reference type `ValueError`; a strong reference type to a class with a property of that type never ends (`RecursionError`); new elements of an enumeration do not come with an array of it; for a value with two names the target's name stays |
| C57 | `walk` (components.py:194-231) takes the start of the next clip as it is and forgets how far inside the clip the time was, so a later step may give a component that is not the source; at a cut it takes the component before the cut; a filler or transition inside a sequence raises `NotImplementedError` although a filler that is a whole segment is given; a missing slot is an `IndexError`; mobs that refer to each other in a circle are followed without end; `create_source_clip(length=0)` takes 0 as not given (mobs.py) |
| C58 | the prefixes are removed only in their own letter case (`datadef_picture` is not found); the prefix of codec names is not removed (`DNxHD` does not find the codec); a name that is only a prefix finds a definition without a name; an unknown identifier gives `None`, not an error; of two names that differ in letter case the first is found for both |
| C59 | when the last frame of raw video is cut off, `ImageSize` is larger than the stream (mobs.py:328-331); a DNx stream without a frame raises `UnboundLocalError` (mobs.py:381); a WAVE file with sample rate 0 is imported without its data when a length is given, and raises `ZeroDivisionError` otherwise; samples of 9 to 15 or 17 to 23 bits come back with 16 or 24 |
| C60 | an unknown length (−1) is read without its sign and raises `struct.error` (mxf.py:360); a data definition that the library does not know raises `AttributeError`, except in source clips (mxf.py:396, 413); sets that refer to each other in a circle raise `RecursionError`; when a track cannot be made the exception leaves the mob in the file with the tracks before it (mxf.py:252); the partition pack of an open or incomplete header is not read, so there is no limit and all sets of the file count (mxf.py:881); a grid of 0 raises `ZeroDivisionError` (mxf.py:926); the limit leaves out key and length of the partition pack and is not on the grid (mxf.py:946, C42); found while reading: `MXFMPEG2VideoDescriptor.link` uses a name that is not defined |
| C61 | copying an object with an operation into a new file raises `KeyError`, as there is no collection of operations yet, although a definition that is missing would be copied (properties.py:1020, file.py:285-294); an array of weak references needs all definitions to be there (`assert`, properties.py:1121), where a single one brings them; `update` with an operation that both files have and that has a further parameter in the first raises `AttributeError`, as operations have no `append` (dictionary.py:281); `update` with an operation whose `DegradeTo` names one that comes after it fails in `assert`; in both cases what came before stays; an empty array of weak references copied into another file cannot be written (`TypeError`, properties.py:1157); `update` leaves out plug-in and KLV data definitions; found while reading: a class that is missing is registered and then copied as well (`if` for `elif`, properties.py:1023-1029) |
| C62 | only the first video and the first audio stream get slots, although the documentation says every stream (ama.py:121-128, 418-428); the sequences of the master and the source mob keep the stored length 0 (ama.py:447-449); a video stream without `codec_name` raises `KeyError` after the three mobs are in the file (ama.py:481); a rate of 0/0 becomes 25 (mobslots.py:104); a WAVE or AIFF file without an audio stream raises `AttributeError` (ama.py:177-178) |
| C63 | with Bezier interpolation and keyframes out of order (C39) `value_at` raises `NameError` (interpolation.py:155 uses an undefined `p`); handles that make the cubic term smaller than `EPSILON` but not zero raise `ValueError` of `math.sqrt` near the next keyframe (interpolation.py:44-59) |
| C64 | a range of the single frame of the center raises `UnboundLocalError` (interpolation.py:300), which is the default for a speed map with one keyframe at 0; a range that ends before the center raises `TypeError` (misc.py:421) |
| C65 | a new stream written to an attached object without other changes is not listed among its properties after closing (`open` does not mark the object as modified); trying to read a missing stream makes it a property, after which the object can be neither copied nor taken out, and a failing `detach` leaves other streams unreadable until they are lost on closing; an exception after `detach` loses the stream of the saved object and leaves `/tmp` in the file; `del` leaves the stream, so that another object cannot be put there |
| C66 | a float whose closest fraction has a numerator beyond 0x7FFFFFFF is stored with the numerator 0x7FFFFFFF, which can be far off (1610612735.5 is stored as 2147483647); above 0x7FFFFFFF the denominator becomes 0 (no exception), negative ones get a negative denominator |
| C67 | an import that fails leaves its new source mob (mobs.py:202-203 appends it first), with an empty slot and empty or incomplete essence data if it failed later; one tape clip for two imports makes the second one raise `AAFAttachError`, after which both slots have the same clip object |
| C68 | a save that is refused has written the changed objects before the refused one, so that the file on disk has new and old values (`C68_atomic_counterexample`; file.py:132-144); a property that becomes required later is not checked in objects that are not changed (`C68_require_counterexample`); a `close` that is refused leaves the container open (`C68_close_counterexample`): at the end of a `with` block `__exit__` calls `close` (file.py:345-347), so that `cfb.close` never runs there and a new file has no directory |
| C69 | of two property objects for a name without a value, what is set by the second one is lost (properties.py:168-171 keeps the first one), while it still reads its own value; after `p.value = None` or `del obj[name]` a kept property reads the old value, since `data` stays (properties.py:161-163) |
| C70 | `mob.mob_id = x` where `x` is no mob id (or `None`) raises after the mob was filed under `x` (properties.py:860-866): it is not found by its id any more and the index cannot be written; if another mob with the old id is then added, a further change of the first mob's id changes that of the other one; clips and essence data that refer to a mob do not follow when its id changes |
| C71 | `decode_indirect_value` knows `Int32` only in little-endian order (mxf.py:84-89): a comment with a big-endian number is left out silently; `decode_rational` reads the signed parts as unsigned ones (mxf.py:91-95) |
| C72 | the setters of `property_name` and `pid` of a definition (metadict.py:64-67, 84-86) do not mark it as changed: in a definition that was saved before the change is lost on the next opening; an empty name is accepted and then cannot be read (properties.py:1293-1298); a name with U+0000 is cut when the file is opened again |
