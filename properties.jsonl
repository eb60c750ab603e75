{"id": "C01", "title": "AUID representations are mutually inverse", "statement": "For every 16-byte value, building an AUID from any one of its representations (bytes_le, bytes_be, int, hex string, the dashed string printed by repr) and reading any other representation back loses nothing: AUID(bytes_be=a.bytes_be), AUID(int=a.int), AUID(hex=a.hex) and AUID(hex=repr(a)) all equal a, and the int is below 2^128.", "quantifier": "all 2^128 AUID values", "why_tests_cant": "the domain has 2^128 elements; a test only tries a handful of them", "anchors": ["src/aaf2/auid.py:AUID.__init__", "src/aaf2/auid.py:AUID.bytes_be", "src/aaf2/auid.py:AUID.int", "src/aaf2/auid.py:AUID.hex", "src/aaf2/auid.py:AUID.__repr__"]}
{"id": "C02", "title": "AUID and MobID equality and ordering form a total order", "statement": "Equality of two AUIDs (or two MobIDs) coincides with equality of their int, and < is a strict total order: irreflexive, transitive, and for any two values exactly one of a<b, a==b, b<a holds; for MobID the order is the lexicographic order of the 32 bytes.", "quantifier": "all pairs and triples of AUIDs and of MobIDs", "why_tests_cant": "order laws quantify over all triples of 128 or 256 bit values", "anchors": ["src/aaf2/auid.py:AUID.__eq__", "src/aaf2/auid.py:AUID.__lt__", "src/aaf2/mobid.py:MobID.__lt__"]}
{"id": "C03", "title": "MobID bytes, int, fields and dict representations are mutually inverse", "statement": "For every MobID m: setting int to m.int, or calling from_dict(m.to_dict()) on any other MobID, gives a MobID equal to m; from_dict of a dict in which keys are missing sets their fields to zero, whatever the MobID was before; and each field setter (SMPTELabel, length, instanceHigh/Mid/Low, Data1..Data4, material) is read back unchanged and leaves every other field unchanged.", "quantifier": "all 32-byte MobIDs and all in-range field values", "why_tests_cant": "2^256 values and every pair of fields", "anchors": ["src/aaf2/mobid.py:MobID.int", "src/aaf2/mobid.py:MobID.from_dict", "src/aaf2/mobid.py:MobID.to_dict"]}
{"id": "C04", "title": "MobID URN text round trip", "statement": "For every MobID m, MobID(m.urn) equals m, and a text without exactly 64 digits is refused. (The round trip is false for the MobIDs whose number-creation byte is 0, whose Data1/Data2 read 060e2b34.7f7f and whose Data4 does not start with 06 0e 2b 34 7f 7f; the exact set of failures is characterised.)", "quantifier": "all 2^256 MobIDs", "why_tests_cant": "the failing inputs are a 2^-56 fraction of the domain, so random tests never meet them", "anchors": ["src/aaf2/mobid.py:MobID.urn"]}
{"id": "C05", "title": "UTF-16 strings survive encoding", "statement": "For every text s that contains no U+0000 and no lone surrogate, decoding the stored form of s gives s back; for texts with an embedded U+0000 exactly the part before the first one comes back; a list of such texts stored as a string array is read back as the same list.", "quantifier": "all strings and all lists of strings, including astral characters", "why_tests_cant": "strings are unbounded; surrogate pairs and NUL placement matter", "anchors": ["src/aaf2/utils.py:encode_utf16le", "src/aaf2/utils.py:decode_utf16le", "src/aaf2/utils.py:encode_utf16_array", "src/aaf2/types.py:iter_utf16_array"]}
{"id": "C06", "title": "Integer property values survive encoding and out-of-range values are refused", "statement": "For an integer type of size 1, 2, 4 or 8, signed or unsigned, encoding an in-range integer yields exactly size bytes and decoding returns the same integer; encoding an out-of-range integer raises; every byte string of that size decodes to an in-range integer that encodes to the same bytes.", "quantifier": "all integers, all eight integer types", "why_tests_cant": "the integers are unbounded and each width has its own boundary", "anchors": ["src/aaf2/types.py:TypeDefInt"]}
{"id": "C07", "title": "Enumeration values survive encoding", "statement": "For an enumeration type, assigning any of its element names stores a value that reads back as that name; assigning one of its integer codes reads back as the name of that code; assigning anything else raises. Registering a new element never changes how existing names or codes read back.", "quantifier": "all element tables (any length), all names and codes, all sequences of registrations", "why_tests_cant": "tables are user-extensible and unbounded", "anchors": ["src/aaf2/types.py:TypeDefEnum", "src/aaf2/types.py:TypeDefExtEnum"]}
{"id": "C08", "title": "Arrays and sets of values survive encoding", "statement": "A variable array of fixed-size elements reads back as the list that was assigned and its stored size is the sum of the element sizes; a set reads back with exactly the assigned members; a fixed array of n elements stores exactly n elements and reads back the assigned ones followed by zero elements. (The fixed array part is false: one element too many is stored.)", "quantifier": "all element types with a fixed byte size, all lists", "why_tests_cant": "lists are unbounded and boundary cases (empty, full, overfull) matter", "anchors": ["src/aaf2/types.py:TypeDefFixedArray", "src/aaf2/types.py:TypeDefVarArray", "src/aaf2/types.py:TypeDefSet"]}
{"id": "C09", "title": "Record values survive encoding", "statement": "For a record type whose member types round trip, encoding a value and decoding it gives the same member values, for any list of members nested to any depth; dates and times of day read back as the same date and hour/minute/second. (Sub-second parts are dropped: shown.)", "quantifier": "all record types over the modelled member types, all values", "why_tests_cant": "record types nest to any depth", "anchors": ["src/aaf2/types.py:TypeDefRecord"]}
{"id": "C10", "title": "Rational values keep numerator and denominator exactly", "statement": "A rational assigned as numerator/denominator (32-bit) is stored and read back with the same numerator and the same denominator, with no reduction; 0/0 reads as 0/1; a zero denominator with nonzero numerator is refused on reading as on construction.", "quantifier": "all pairs of 32-bit integers", "why_tests_cant": "2^64 pairs, with the exceptional ones on a line", "anchors": ["src/aaf2/rational.py:AAFRational.__new__", "src/aaf2/types.py:TypeDefRecord"]}
{"id": "C11", "title": "Self-describing (indirect) values survive encoding", "statement": "A value assigned to an Indirect property is stored with its own type id and reads back as the same value and type whatever the type is, as long as that type is known and its own values round trip.", "quantifier": "all known types and all their values", "why_tests_cant": "ranges over every type in the dictionary and every value", "anchors": ["src/aaf2/types.py:TypeDefIndirect"]}
{"id": "C12", "title": "The property stream of an object round trips", "statement": "Writing the properties of an object and reading the stream back yields the same property ids, formats and raw values in the same order, for any number of properties whose ids, formats and sizes fit 16 bits; if a size or id does not fit, writing raises instead of writing a damaged stream.", "quantifier": "all finite property tables", "why_tests_cant": "unbounded tables, sizes at the 16-bit edge", "anchors": ["src/aaf2/core.py:AAFObject.write_properties", "src/aaf2/core.py:AAFObject.read_properties"]}
{"id": "C13", "title": "The referenced-properties table round trips and weak reference indices stay valid", "statement": "Writing and reading the weak reference path table gives the same list of paths; asking for the index of a path returns an index at which that path is stored, the same path always gets the same index, different paths get different indices, and indices handed out earlier keep designating the same path.", "quantifier": "all path tables and all histories of index requests", "why_tests_cant": "histories are unbounded; existing indices are stored in the file so they must never move", "anchors": ["src/aaf2/file.py:AAFFile.write_reference_properties", "src/aaf2/file.py:AAFFile.read_reference_properties", "src/aaf2/file.py:AAFFile.weakref_index"]}
{"id": "C14", "title": "Index streams of reference collections round trip", "statement": "For a strong reference vector, a strong reference set and a weak reference array or single weak reference, the stored index or value reads back as the same keys, local keys, free-key counters, key pid and key size.", "quantifier": "all vectors, sets and arrays of any length", "why_tests_cant": "unbounded collections", "anchors": ["src/aaf2/properties.py:StrongRefVectorProperty.write_index", "src/aaf2/properties.py:StrongRefSetProperty.write_index", "src/aaf2/properties.py:WeakRefArrayProperty.write_index", "src/aaf2/properties.py:WeakRefProperty.encode"]}
{"id": "C15", "title": "Generated storage names fit and never collide inside an object", "statement": "The directory names the library generates for the properties of one object (streams, single references, collection members and collection indexes) fit a directory entry of 31 characters, and two different properties, two different members, or a member and an index never get the same name, nor the name 'properties'.", "quantifier": "all property names, all pairs of property ids below 2^16 and member keys below 2^32", "why_tests_cant": "squeezing of long names could merge any two of an unbounded set of names", "anchors": ["src/aaf2/utils.py:mangle_name", "src/aaf2/utils.py:squeeze_name", "src/aaf2/properties.py:StrongRefVectorProperty.index_ref_name"]}
{"id": "C16", "title": "The bounded cache behaves as a map with least-recently-used eviction", "statement": "For every sequence of set, get and delete, a get returns the last value set for that key unless the key was deleted or evicted; a key is evicted only by inserting a new key when the cache is full and it is then the least recently used one; the number of entries never exceeds the capacity. (The capacity is size+1, not size: shown.)", "quantifier": "all capacities and all operation sequences", "why_tests_cant": "correctness of a linked structure over all histories", "anchors": ["src/aaf2/cache.py:LRUCacheDict"]}
{"id": "C17", "title": "Following a sector chain always terminates and detects cycles", "statement": "For every allocation table content whatsoever and every start sector, following the chain terminates: it returns the sectors of the chain, without repetition, when the chain ends; it raises the cyclic chain error exactly when the chain is cyclic; otherwise it raises an index error because the chain leaves the table.", "quantifier": "all tables (well formed or corrupt) and all start sectors", "why_tests_cant": "termination on hostile files cannot be tested exhaustively", "anchors": ["src/aaf2/cfb.py:CompoundFileBinary.get_fat_chain"]}
{"id": "C18", "title": "Sector allocation never hands out a sector in use and never loses one", "statement": "For every history of allocations and frees of full and mini sectors: an allocated sector was free, chains of different streams, the directory, the mini stream, the mini FAT, the FAT and the DIFAT never share a sector, each free sector is listed exactly once as free, and after freeing a chain all its sectors are available again.", "quantifier": "all histories of allocate, append and free", "why_tests_cant": "needs an invariant over all histories", "anchors": ["src/aaf2/cfb.py:CompoundFileBinary.next_free_sect", "src/aaf2/cfb.py:CompoundFileBinary.next_free_minifat_sect", "src/aaf2/cfb.py:CompoundFileBinary.fat_chain_append", "src/aaf2/cfb.py:CompoundFileBinary.free_fat_chain"]}
{"id": "C19", "title": "The range lock sector is never used for data", "statement": "In a file with 4096-byte sectors, however large it grows and whatever is freed, the sector covering file offsets 0x7FFFFF00-0x7FFFFFFF is never handed out for stream, directory or table data.", "quantifier": "all histories, all file sizes", "why_tests_cant": "needs files of 2 GiB and all histories", "anchors": ["src/aaf2/cfb.py:CompoundFileBinary.next_free_sect"]}
{"id": "C20", "title": "The FAT and DIFAT grow consistently", "statement": "After any number of growth steps the FAT length is a multiple of the entries per sector, the DIFAT lists exactly one FAT sector per FAT block in order, each of these is marked as FAT sector, each DIFAT sector is marked as such and the recorded counts are exact.", "quantifier": "all numbers of growth steps, both sector sizes", "why_tests_cant": "the DIFAT only overflows the header after 109 FAT sectors and again every 1023 more", "anchors": ["src/aaf2/cfb.py:CompoundFileBinary.next_free_sect", "src/aaf2/cfb.py:CompoundFileBinary.iter_difat"]}
{"id": "C21", "title": "A stream behaves as a byte array with a position", "statement": "For every sequence of read, write, seek, tell and truncate through one stream handle, results and final content are those of an in-memory byte array: writes at the position overwrite and extend, seeking past the end extends with zeros, truncating cuts, reads return the bytes last written, including when the stream moves between mini and regular sectors in either direction. (Growing by truncate does not zero-fill: shown.)", "quantifier": "all operation sequences, all sizes across the 4096 byte threshold, both sector sizes", "why_tests_cant": "all histories and sizes, with interacting thresholds", "anchors": ["src/aaf2/cfb.py:Stream.read", "src/aaf2/cfb.py:Stream.write", "src/aaf2/cfb.py:Stream.seek", "src/aaf2/cfb.py:Stream.truncate", "src/aaf2/cfb.py:Stream.allocate"]}
{"id": "C22", "title": "Operations on one stream leave the others untouched", "statement": "Reading, writing, seeking and truncating one stream never changes the bytes or size of any other stream in the file.", "quantifier": "all pairs of streams, all operation histories", "why_tests_cant": "interference would depend on the exact allocation history", "anchors": ["src/aaf2/cfb.py:Stream.write", "src/aaf2/cfb.py:Stream.truncate"]}
{"id": "C23", "title": "Cached sectors are always up to date", "statement": "Whatever the sequence of reads, stream writes and directory flushes, reading a sector through the cache gives the same bytes as reading it from the file.", "quantifier": "all histories, all cache states including evictions", "why_tests_cant": "stale data depends on the history", "anchors": ["src/aaf2/cfb.py:CompoundFileBinary.read_sector_data", "src/aaf2/cfb.py:Stream.write", "src/aaf2/cfb.py:CompoundFileBinary.write_modified_dir_entries"]}
{"id": "C24", "title": "Directory entry fields are independent and persistent", "statement": "Setting a field of a directory entry (name, type, color, left/right/child id, class id, flags, times, sector id, size) is read back unchanged from the 128-byte record and does not disturb any other field. (Setting the modify time fails: shown.)", "quantifier": "all field values and all previous record contents", "why_tests_cant": "2^1024 record contents and every pair of fields", "anchors": ["src/aaf2/cfb.py:DirEntry"]}
{"id": "C25", "title": "Creating entries keeps the directory a search tree with exactly the created names", "statement": "After any sequence of creations of entries with pairwise different names (case-insensitively) in a directory, creation never fails, listing returns exactly the created entries, and every entry is found by descending the stored tree with the compound-file name order, as other readers do; the tree stays balanced (red-black).", "quantifier": "all sequences of names of any length", "why_tests_cant": "tree shapes are unbounded and rebalancing depends on the whole history", "anchors": ["src/aaf2/cfb.py:DirEntry.insert", "src/aaf2/cfb.py:DirEntry.add_child", "src/aaf2/cfb.py:CompoundFileBinary.listdir_dict"]}
{"id": "C26", "title": "Removing entries keeps the directory a search tree with exactly the remaining names", "statement": "After any sequence of creations and removals in a directory, removal of an existing entry succeeds, and listing and search find exactly the remaining entries. (Whether it holds for the code is settled in the model.)", "quantifier": "all interleavings of creations and removals", "why_tests_cant": "top-down deletion depends on shape and colours produced by the whole history", "anchors": ["src/aaf2/cfb.py:DirEntry.pop", "src/aaf2/cfb.py:find_entry_parent"]}
{"id": "C27", "title": "The storage behaves as a tree of named directories and streams", "statement": "exists, find, makedir, makedirs, create, remove, move, rmtree and listdir act as on an abstract tree of named nodes: a created path exists, nothing else changes, a removed path no longer exists, a move transfers the whole subtree unchanged, creating an existing path or removing a non-empty directory raises and changes nothing.", "quantifier": "all trees, all paths, all operation sequences", "why_tests_cant": "unbounded trees and histories", "anchors": ["src/aaf2/cfb.py:CompoundFileBinary.find", "src/aaf2/cfb.py:CompoundFileBinary.create_dir_entry", "src/aaf2/cfb.py:CompoundFileBinary.remove", "src/aaf2/cfb.py:CompoundFileBinary.move", "src/aaf2/cfb.py:CompoundFileBinary.rmtree"]}
{"id": "C28", "title": "Closing and reopening a file gives the same content", "statement": "After any history of operations, closing the file and reading it back gives the same FAT, DIFAT, mini FAT, directory tree and the same bytes in every stream.", "quantifier": "all histories and contents", "why_tests_cant": "whole-file round trip over all reachable states", "anchors": ["src/aaf2/cfb.py:CompoundFileBinary.close", "src/aaf2/cfb.py:CompoundFileBinary.__init__", "src/aaf2/cfb.py:CompoundFileBinary.write_fat", "src/aaf2/cfb.py:CompoundFileBinary.read_fat"]}
{"id": "C29", "title": "The file header round trips", "statement": "Writing the header and reading it back gives the same class id, versions, sector sizes, sector counts, start sectors and first 109 DIFAT entries; a file whose magic, byte order or sector size is not supported is refused.", "quantifier": "all header field values that fit their width", "why_tests_cant": "the fields range over 32-bit values", "anchors": ["src/aaf2/cfb.py:CompoundFileBinary.write_header", "src/aaf2/cfb.py:CompoundFileBinary.read_header"]}
{"id": "C30", "title": "Directory entry ids are unique among live entries", "statement": "For every history of creations, removals and moves, a newly created entry gets an id no live entry has, and two live entries never share their 128-byte slot.", "quantifier": "all histories", "why_tests_cant": "needs an invariant over all histories", "anchors": ["src/aaf2/cfb.py:CompoundFileBinary.next_free_dir_id", "src/aaf2/cfb.py:CompoundFileBinary.free_dir_entry"]}
{"id": "C31", "title": "A file opened read-only is never modified", "statement": "Every attempt to change a property or object of a file opened with mode 'r' raises, and closing or leaving the with block writes nothing; mode strings map to exactly the documented behaviours and any other mode string is refused.", "quantifier": "all operation sequences on a read-only file, all mode strings", "why_tests_cant": "every mutation path must be covered", "anchors": ["src/aaf2/file.py:AAFFile.__init__", "src/aaf2/properties.py:writeonly", "src/aaf2/file.py:AAFObjectManager.add_modified", "src/aaf2/cfb.py:CompoundFileBinary.close"]}
{"id": "C32", "title": "A strong reference vector behaves as a list of objects", "statement": "append, extend, insert, pop, item assignment, clear and iteration on a collection such as a sequence's components act as on a Python list, each object keeps its own storage directory, and no two members share one. (insert with an index beyond the end or negative is wrong: shown.)", "quantifier": "all sequences of operations, all lengths", "why_tests_cant": "the object cache, the key list and the directories must stay aligned over all histories", "anchors": ["src/aaf2/properties.py:StrongRefVectorProperty"]}
{"id": "C33", "title": "A strong reference set behaves as a map keyed by unique id", "statement": "append, extend, pop, get, clear, membership and length act as on a map from unique key to object; adding an object with an existing key replaces the former one; changing an object's unique key re-files it under the new key without losing any other object. (Re-keying onto an existing key drops an object: shown.)", "quantifier": "all sequences of operations, all key sets", "why_tests_cant": "histories are unbounded", "anchors": ["src/aaf2/properties.py:StrongRefSetProperty", "src/aaf2/properties.py:Property.value"]}
{"id": "C34", "title": "An object is attached at one place at most", "statement": "Assigning to a reference property an object already attached elsewhere raises and never leaves two owners. (False: the test compares directory names only, so an object attached under the same generated name elsewhere is silently shared: shown.)", "quantifier": "all object graphs and assignment histories", "why_tests_cant": "depends on name coincidences across objects", "anchors": ["src/aaf2/properties.py:StrongRefProperty.attach", "src/aaf2/core.py:AAFObject.attach"]}
{"id": "C35", "title": "Dynamically allocated property ids are unique and in the dynamic range", "statement": "Every property id allocated for a user-defined property is one no other property definition in the file has, and lies in 0x8000..0xFFFF; when none is left allocation raises. (The end of the range is wrong: shown.)", "quantifier": "all sets of ids already in use and all allocation histories", "why_tests_cant": "exhaustion and collisions depend on the whole history", "anchors": ["src/aaf2/metadict.py:MetaDictionary.next_free_pid"]}
{"id": "C36", "title": "Class inheritance tests are a partial order", "statement": "For every acyclic class hierarchy, the test used to accept or refuse objects in reference properties is reflexive and transitive, holds exactly between a class and its descendants, and terminates.", "quantifier": "all class hierarchies, built-in or user-extended", "why_tests_cant": "hierarchies are user-extensible", "anchors": ["src/aaf2/metadict.py:ClassDef.isinstance", "src/aaf2/metadict.py:ClassDef.relatives"]}
{"id": "C37", "title": "New timeline slots get a slot id not already used in the mob", "statement": "create_timeline_slot, create_picture_slot and create_sound_slot without an explicit id give the new slot an id different from every existing slot of the mob. (False as soon as existing ids have a gap: shown.)", "quantifier": "all sets of existing slot ids", "why_tests_cant": "fails only for particular id sets", "anchors": ["src/aaf2/mobs.py:Mob.create_timeline_slot"]}
{"id": "C38", "title": "Sequence positions and lookup by time are consistent", "statement": "For every sequence of components, positions are the running sums of lengths (transitions count negatively), and index_at_time returns the component covering the given time. (At exact cuts it returns the previous one: shown.)", "quantifier": "all component lists and all times", "why_tests_cant": "lists are unbounded and boundaries matter", "anchors": ["src/aaf2/components.py:Sequence.positions", "src/aaf2/components.py:Sequence.index_at_time"]}
{"id": "C39", "title": "Keyframes stay sorted by time", "statement": "For every history of add_keyframe calls the keyframes of a varying value are in increasing time order with one keyframe per time, the last value given for a time wins, and the nearest-keyframe search returns the last keyframe at or before the requested time. (Adding before the first keyframe breaks it: shown.)", "quantifier": "all insertion orders of all finite sets of times", "why_tests_cant": "all permutations", "anchors": ["src/aaf2/misc.py:VaryingValue.add_keyframe", "src/aaf2/misc.py:nearest_index"]}
{"id": "C40", "title": "Mob dependency listing is complete, duplicate free and ordered", "statement": "For every acyclic reference graph between mobs, dependant_mobs terminates and yields every mob reachable from the start exactly once, each after all mobs it refers to. (With a reference cycle it never terminates: shown.)", "quantifier": "all reference graphs", "why_tests_cant": "graphs are unbounded; non-termination cannot be tested", "anchors": ["src/aaf2/mobs.py:Mob.dependant_mobs"]}
{"id": "C41", "title": "DNx streams are cut into frames without loss", "statement": "Splitting a concatenation of well-formed DNx frames yields exactly these frames in order, whatever their number and sizes; splitting always terminates and the pieces concatenated are a prefix of the input.", "quantifier": "all byte streams and all frame sequences", "why_tests_cant": "unbounded streams", "anchors": ["src/aaf2/video.py:iter_dnx_stream", "src/aaf2/video.py:dnx_frame_size"]}
{"id": "C42", "title": "MXF key-length-value parsing follows the lengths exactly", "statement": "For every sequence of key-length-value packets, with any legal BER form of the lengths, iterating the file yields exactly these keys and lengths in order, independent of how much of each value the consumer reads; tag parsing inside a set returns each nonempty local tag with its exact bytes.", "quantifier": "all packet sequences, all BER length forms", "why_tests_cant": "unbounded files, variable-length length fields", "anchors": ["src/aaf2/mxf.py:ber_length", "src/aaf2/mxf.py:iter_kl", "src/aaf2/mxf.py:iter_tags"]}
{"id": "C43", "title": "WAVE and AIFF header extraction finds the format chunk", "statement": "For every RIFF/WAVE (or FORM/AIFF) file, the extracted summary is the 12-byte file header followed by the first fmt (COMM) chunk with its exact size, whatever chunks of odd or even size precede it; on any other input it returns None and always terminates.", "quantifier": "all files", "why_tests_cant": "arbitrary preceding chunks, padding of odd sizes", "anchors": ["src/aaf2/ama.py:get_wave_fmt", "src/aaf2/ama.py:get_aifc_fmt"]}
{"id": "C44", "title": "Tagged value helpers behave as a dictionary", "statement": "The comments of a mob act as a dictionary from name to value: setting then getting returns the value, other names are unaffected, a name never set is reported missing, the items are the names with their last values, each once, and setting a name twice keeps one entry.", "quantifier": "all operation sequences", "why_tests_cant": "all histories", "anchors": ["src/aaf2/misc.py:TaggedValueHelper"]}
{"id": "C45", "title": "Unsaved changes and failed with-blocks have a defined effect", "statement": "When a with block on a writable file raises, pending object changes are not written but the container is closed consistently; after save() without close() the container tables on disk do not yet include the new data. Close is what makes a file readable.", "quantifier": "all histories and crash points between operations", "why_tests_cant": "all crash points", "anchors": ["src/aaf2/file.py:AAFFile.__exit__", "src/aaf2/file.py:AAFFile.save", "src/aaf2/file.py:AAFFile.close"]}
{"id": "C46", "title": "Walking and removing trees visits every entry exactly once", "statement": "walk yields every storage below the start exactly once with exactly its direct children, parents before children top-down and after bottom-up; rmtree frees every entry id and every sector of the subtree exactly once and nothing else.", "quantifier": "all directory trees", "why_tests_cant": "unbounded trees", "anchors": ["src/aaf2/cfb.py:CompoundFileBinary.walk", "src/aaf2/cfb.py:CompoundFileBinary.rmtree"]}
{"id": "C47", "title": "Copying an object preserves its property values", "statement": "Copying an object within a file or to another file gives an object with the same property values, with property ids translated to those of the destination, and leaves the original unchanged.", "quantifier": "all object graphs", "why_tests_cant": "unbounded graphs, arbitrary id renumbering", "anchors": ["src/aaf2/core.py:AAFObject.copy", "src/aaf2/properties.py"]}
{"id": "C48", "title": "Contents at paths survive any history, including closing and reopening", "statement": "In a compound file made new, any sequence of path calls (find, exists, listdir, create, makedirs, remove, move, rmtree, walk), opening streams in any mode, reading, writing, seeking and truncating them, setting class ids and times, flushing, and closing and reopening the file acts as on a tree of paths whose streams are byte arrays: reading a path gives the bytes last put there, a move takes the bytes along, removing frees exactly the sectors of what is removed, and closing and reopening changes nothing but the stream positions.", "quantifier": "all histories of calls, all contents, both sector sizes", "why_tests_cant": "unbounded histories that interleave directory trees, sector allocation, caches and reopening", "anchors": ["src/aaf2/cfb.py:CompoundFileBinary", "src/aaf2/cfb.py:CompoundFileBinary.open", "src/aaf2/cfb.py:CompoundFileBinary.close", "src/aaf2/cfb.py:DirEntry", "src/aaf2/cfb.py:Stream"]}
{"id": "C49", "title": "Objects are read back from the container as they were saved", "statement": "The properties saved for an object (values, weak references, stream names, strong reference and weak reference indexes), its class id, its stream properties and the table of weak reference paths are read back from the file unchanged, whatever is saved for other objects in between, however often longer or shorter properties are saved over earlier ones, and however often the file is closed and opened. Saving a value that does not fit raises and leaves what was saved before.", "quantifier": "all histories of saving and reading objects at any places, all property names, both sector sizes", "why_tests_cant": "unbounded histories; object formats, generated names, directory tree and sector allocation interact", "anchors": ["src/aaf2/core.py:AAFObject.read_properties", "src/aaf2/core.py:AAFObject.write_properties", "src/aaf2/properties.py", "src/aaf2/file.py:AAFFile.write_reference_properties", "src/aaf2/file.py:AAFFile.read_reference_properties", "src/aaf2/cfb.py:DirEntry"]}
{"id": "C50", "title": "A program's objects are in the bytes of its file", "statement": "Take any program on a new file: creating objects, setting values, putting objects in properties, lists and sets, taking them out, saving, leaving by an exception, closing and opening, with garbage collection at any moment, whatever the calls raise. Every time the library reads an object during the program, the bytes of the container hold exactly the class and properties that it gets. When the program closes the file, walking the objects from the root of the bytes (walk_references) visits exactly the objects of the program, each with its class, key, properties in order, values and members in order.", "quantifier": "all programs, all objects and values that fit the formats, any naming of classes and properties, both sector sizes, any depth of the walk", "why_tests_cant": "unbounded programs; a mistake in object ownership, index tables, saving order, directory tree or sector allocation shows only after some history, possibly in an unrelated object", "anchors": ["src/aaf2/file.py:AAFObjectManager", "src/aaf2/file.py:AAFFile.save", "src/aaf2/core.py:AAFObject.walk_references", "src/aaf2/core.py:AAFObject.attach", "src/aaf2/properties.py", "src/aaf2/cfb.py:CompoundFileBinary"]}
{"id": "C51", "title": "Compound files of other applications are read and edited as what they store", "statement": "Let a file be a compound file by the format: header, DIFAT, FAT and mini FAT that describe disjoint chains, directory records linked to a search tree per storage, data of streams in sectors or mini sectors, with any order of sectors, any shape of the trees and any use of the records. Opening it succeeds, reading a path gives exactly the bytes that the file stores there, any history of calls on it acts as on the tree of paths and bytes that it stores, and a file stores only one content.", "quantifier": "all byte sequences that are compound files, both sector sizes, all layouts, all histories of calls on them", "why_tests_cant": "test files come from a few applications with their own layouts; the format allows unboundedly many layouts of the same content", "anchors": ["src/aaf2/cfb.py:CompoundFileBinary.__init__", "src/aaf2/cfb.py:CompoundFileBinary.read_header", "src/aaf2/cfb.py:CompoundFileBinary.read_fat", "src/aaf2/cfb.py:CompoundFileBinary.read_minifat", "src/aaf2/cfb.py:CompoundFileBinary.read_dir_entry", "src/aaf2/cfb.py:Stream.allocate"]}
{"id": "C52", "title": "What is written is a compound file", "statement": "After any history of calls on a new file or on a compound file of another application, closing succeeds and the bytes are a compound file by the format that stores exactly the result of the history: header, tables, chains, directory records, search trees and data agree, no sector has two uses and none is lost. If nothing was removed or moved, the directory trees are red-black.", "quantifier": "all histories of calls, all contents, both sector sizes", "why_tests_cant": "other applications read the bytes by the format; a wrong table entry or link after some history shows only there", "anchors": ["src/aaf2/cfb.py:CompoundFileBinary.close", "src/aaf2/cfb.py:CompoundFileBinary.write_header", "src/aaf2/cfb.py:CompoundFileBinary.write_difat", "src/aaf2/cfb.py:CompoundFileBinary.write_fat", "src/aaf2/cfb.py:CompoundFileBinary.write_minifat", "src/aaf2/cfb.py:CompoundFileBinary.write_dir_entries", "src/aaf2/cfb.py:DirEntry"]}
{"id": "C53", "title": "A weak reference is the object that has its key in the target collection", "statement": "In every history of creating objects, adding and removing members, assigning weak references and arrays of them, saving, leaving by an exception and opening again, reading a weak reference gives the object that is now in the target collection under the key of the object that was assigned, and KeyError if there is none; what was assigned is what is read while it is in the collection; an array gives its objects in order; no other call changes a weak reference; closing and opening keeps all of them, leaving by an exception gives back those last saved.", "quantifier": "all programs of calls on objects, members and weak references, all definitions of weak reference properties, all choices of the garbage collector, all saves, aborts and reopenings", "why_tests_cant": "a reference is an index into a table that grows in the order of use, is stored in another stream and is followed through objects that may have been evicted or replaced; a stale index or key shows only after particular histories", "anchors": ["src/aaf2/properties.py:WeakRefProperty", "src/aaf2/properties.py:WeakRefArrayProperty", "src/aaf2/properties.py:resolve_weakref", "src/aaf2/file.py:AAFFile.resovle_weakref", "src/aaf2/file.py:AAFFile.weakref_prop", "src/aaf2/file.py:AAFFile.weakref_index", "src/aaf2/file.py:AAFFile.read_reference_properties", "src/aaf2/file.py:AAFFile.write_reference_properties"]}
{"id": "C54", "title": "A property is found by its name", "statement": "In every file, new or opened, with any classes and properties that programs register, a value set under the name of a property of an object, its own or an inherited one, is the value read under that name, other names and other objects are unaffected, names and keys are those of the classes, and the value is stored with the type of the named property; all of this also after closing and opening again and in files of other applications, whose numbers for properties differ from those of the library.", "quantifier": "all programs that register classes and properties, create objects, set, read, delete and list values by name and open again; all class tables; all files whose definitions fit those of the library; all sound encodings", "why_tests_cant": "properties are stored under numbers that are given out dynamically, differ from file to file and are changed when a file's numbers collide with the library's; whether a name still reaches its value depends on every registration and reopening before", "anchors": ["src/aaf2/metadict.py:MetaDictionary.register_classdef", "src/aaf2/metadict.py:MetaDictionary.next_free_pid", "src/aaf2/metadict.py:MetaDictionary.read_properties", "src/aaf2/metadict.py:MetaDictionary.register_extensions", "src/aaf2/metadict.py:ClassDef.register_propertydef", "src/aaf2/metadict.py:ClassDef.get_propertydef_from_pid", "src/aaf2/core.py:AAFObject.get", "src/aaf2/core.py:AAFObject.__setitem__", "src/aaf2/properties.py:Property.value", "src/aaf2/model/classdefs.py", "src/aaf2/model/ext/classdefs.py"]}
{"id": "C55", "title": "A copy in another file has the same values under the same names", "statement": "An object that is copied into another file has there, under the same names, the values it has here, and the same keys, whatever numbers both files use for the properties, whatever classes and properties were registered in either file before, and also after the other file was closed and opened again; the object itself, the other objects of both files and what they can be asked for are as before. Classes and properties that the other file does not know are registered in it.", "quantifier": "all programs on any number of files that register classes and properties, create objects, set, read, delete and list values by name, copy objects between the files and open them again; all sound encodings", "why_tests_cant": "numbers of properties are given out by every file for itself, so that the copy has to be renumbered by identifiers against definitions that it also has to bring along; whether the values arrive depends on all registrations in both files", "anchors": ["src/aaf2/core.py:AAFObject.copy", "src/aaf2/metadict.py:MetaDictionary.register_external_classdef", "src/aaf2/metadict.py:ClassDef.lookup_propertydef", "src/aaf2/metadict.py:ClassDef.register_propertydef", "src/aaf2/metadict.py:MetaDictionary.next_free_pid"]}
{"id": "C56", "title": "Types that come with objects of another file mean the same there", "statement": "When an object of another file brings its types along, a value of such a type is read and written in this file as it is in the other file, and goes on being so whatever is brought later; whatever is brought from any files, and also if bringing fails on the way, values of the types that this file had are read and written as before, and enumerations only gain elements.", "quantifier": "all type dictionaries of both files, all types built from integers, enumerations, extendible enumerations, arrays, strings, records and renamed types to any depth, all values, all histories of types and classes brought from any number of files with any outcome", "why_tests_cant": "the definition is rebuilt from components that may or may not be known in the target, members of records are found by the names of their types, and elements of enumerations are merged; what a type means afterwards depends on both dictionaries and on what was brought before", "anchors": ["src/aaf2/metadict.py:MetaDictionary.register_external_typedef", "src/aaf2/metadict.py:MetaDictionary.register_external_classdef", "src/aaf2/metadict.py:MetaDictionary.register_typedef_model", "src/aaf2/types.py:TypeDefRecord.fields", "src/aaf2/types.py:TypeDefEnum.register_element", "src/aaf2/types.py:TypeDefExtEnum.register_element"]}
{"id": "C57", "title": "Following source clips leads through the sources of the material", "statement": "Walking a source clip gives, in order, the components that the material comes from: the component of the referenced track that shows the referenced time, then, if that is a source clip, the one its own source shows at that time, and so on until a clip without source or a component that is no clip; the walk ends when no mob refers back to itself; a clip created from a track with a start refers to that place and has the length from there to the end of the track.", "quantifier": "all files of mobs, slots and segments, all chains of references of any length, all clips and times", "why_tests_cant": "the chain has any length and passes through sequences with transitions, and the time must be carried over at each step", "anchors": ["src/aaf2/components.py:SourceClip.walk", "src/aaf2/components.py:SourceClip.mob", "src/aaf2/components.py:SourceClip.slot", "src/aaf2/components.py:Sequence.nearest_component", "src/aaf2/mobs.py:Mob.create_source_clip", "src/aaf2/mobs.py:Mob.slot_at"]}
{"id": "C58", "title": "Definitions are found by identifier and by name", "statement": "A data, container or codec definition of the file's dictionary is found by its identifier and by its name, with and without the prefixes DataDef_ and ContainerDef_ and in any letter case of the rest, always the same one; a name that no definition has raises an exception; a definition that is registered is found the same way from then on and those that were there stay found. The definitions that come with the library have different names, so this holds for them.", "quantifier": "all dictionaries whose definitions have names that differ in more than the prefix and letter case, all names, all definitions registered in any order", "why_tests_cant": "names are compared after two removals and a case conversion, over any collection of definitions", "anchors": ["src/aaf2/dictionary.py:lookup_def", "src/aaf2/dictionary.py:short_name", "src/aaf2/dictionary.py:Dictionary.lookup_datadef", "src/aaf2/dictionary.py:Dictionary.lookup_containerdef", "src/aaf2/dictionary.py:Dictionary.lookup_codecdef", "src/aaf2/dictionary.py:Dictionary.register_def"]}
{"id": "C59", "title": "Imported essence is the essence of the file", "statement": "Importing raw video puts frame k of the file at k times the sample size of the descriptor, which is the least multiple of 8192 that a frame fits in, with zeros up to the next frame; the lengths of descriptor and segment are the number of frames, and the image size is the size of the stream exactly when the last frame is complete. Importing a DNx stream of complete frames stores these frames in order, and the lengths are their number. Importing a WAVE file with samples of 9 to 24 bits at its own rate stores its data unchanged, with the number of sample frames as length, and exporting the sound gives the file again when samples have 16 or 24 bits; exporting essence and importing it gives the essence. Other WAVE files, and streams without a frame, raise.", "quantifier": "all file contents of any length, all picture sizes and pixel layouts, all sequences of frames, all sample rates above 0, channel counts and sample sizes", "why_tests_cant": "content, number of frames, padding and the size of the pieces that are read depend on each other for every length of the file", "anchors": ["src/aaf2/mobs.py:SourceMob.import_rawvideo_essence", "src/aaf2/mobs.py:SourceMob.import_dnxhd_essence", "src/aaf2/mobs.py:SourceMob.import_audio_essence", "src/aaf2/mobs.py:SourceMob.export_audio", "src/aaf2/audio.py:WaveReader", "src/aaf2/video.py:iter_dnx_stream", "src/aaf2/video.py:dnx_compression_auids"]}
{"id": "C60", "title": "Linking an OP-Atom MXF file adds the mobs that its header describes", "statement": "content.link_external_mxf adds, for every package of the content storage whose id is not in the file yet, a master or source mob with the id of the package and, in order, a slot for every timeline track, with its number, edit rate, physical track number and origin and a segment that has the kinds, lengths, references, timecodes and the nesting of sequences and essence groups that the sets describe. The order of the sets, the forms of their lengths, fill items and what comes after the header do not matter; no mob id comes twice, linking the file again adds nothing; a file that cannot be linked adds nothing.", "quantifier": "all closed and complete header partitions, with any packages, tracks, nested segments of any depth, in any order, any unknown sets and tags, any bytes after the header, any mobs that are there already", "why_tests_cant": "files are made by other programs with sets in any order and references between them; the result depends on parsing, on resolving references of any depth and on where reading stops", "anchors": ["src/aaf2/content.py:ContentStorage.link_external_mxf", "src/aaf2/mxf.py:MXFFile.__init__", "src/aaf2/mxf.py:MXFFile.link", "src/aaf2/mxf.py:MXFFile.read_header", "src/aaf2/mxf.py:MXFFile.read_object", "src/aaf2/mxf.py:MXFObject.read_properties", "src/aaf2/mxf.py:MXFPackage.link", "src/aaf2/mxf.py:MXFTrack.link", "src/aaf2/mxf.py:MXFSequence.link", "src/aaf2/mxf.py:decode_mob_id", "src/aaf2/mxf.py:decode_datadef"]}
{"id": "C61", "title": "A copy in another file refers to the same definitions there", "statement": "obj.copy(root=other) gives an object whose weak references, and those of all objects below it, give in the other file the definitions with the same keys, in the collections the properties are for. Nothing the other file had is changed or replaced, references stored before keep their meaning, and what is added are definitions of the first file, also when an exception is raised. After other.dictionary.update(file.dictionary) every data, container, codec, parameter, operation, interpolation and tagged value definition of the first file is in the other one, and then every object of the first file whose references are for these or for types can be copied.", "quantifier": "all pairs of files, all objects with any number of properties and objects below, all tables of paths, all definitions in any number with references of any depth, all sequences of further copies, all points at which an exception is raised", "why_tests_cant": "whether a reference is right depends on the tables and dictionaries of both files, on the order of the definitions and on what has been copied before", "anchors": ["src/aaf2/properties.py:WeakRefProperty.copy", "src/aaf2/properties.py:WeakRefArrayProperty.copy", "src/aaf2/dictionary.py:Dictionary.update", "src/aaf2/file.py:AAFFile.weakref_index", "src/aaf2/file.py:AAFFile.weakref_prop", "src/aaf2/core.py:AAFObject.copy"]}
{"id": "C62", "title": "A link to external media has a slot for every track, which leads to the tape", "statement": "content.create_ama_link(path, metadata) adds a master, a source and a tape mob with one slot for each video stream and each audio channel that the metadata describes, with the kind, rate and length of the stream and the ids 1, 2, ...; the audio slots are numbered 1, 2, ...; what a slot of the master mob shows at any time is what the slot of the source mob and that of the tape mob with the same id show at that time, and walk() on a clip of it gives the three clips; the descriptor of the source mob describes every stream. Formats that are not known, and metadata without the needed entries, add nothing.", "quantifier": "all metadata, with any number of streams of any kind in any order, any rates, lengths and numbers of channels, any missing entries, all contents of the file before", "why_tests_cant": "the slots, their ids and their references depend on the number and order of streams and channels and on three passes that read the slots made before", "anchors": ["src/aaf2/ama.py:create_media_link", "src/aaf2/ama.py:FormatInfo", "src/aaf2/ama.py:StreamInfo", "src/aaf2/content.py:ContentStorage.create_ama_link", "src/aaf2/content.py:ContentStorage.link_external_wav", "src/aaf2/mobs.py:Mob.create_empty_sequence_slot", "src/aaf2/mobs.py:Mob.create_source_clip"]}
{"id": "C63", "title": "The value of a parameter at any time is on the curve of its keyframes", "statement": "For a varying value whose keyframes are in order of time, value_at(t) is the value of the first keyframe before it and of the last one from there on; at the time of a keyframe it is its value. Between two keyframes it is the value of the earlier one (constant), on the line between them (linear), on the curve of the two keyframes and their handles at that time (Bezier, handles cut to the interval), or on a smooth curve that never leaves the range of the two values (cubic). There is one value for each time, and for Bezier it never leaves the range of the values of keyframes and handles.", "quantifier": "all lists of keyframes in order, all values and handles, all times, all four interpolations, in exact arithmetic", "why_tests_cant": "the value comes from a search, from the solution of a cubic equation with four cases and from handles that may point anywhere; tests see single times of single curves", "anchors": ["src/aaf2/misc.py:VaryingValue.value_at", "src/aaf2/misc.py:VaryingValue.nearest_index", "src/aaf2/interpolation.py:bezier_interpolate", "src/aaf2/interpolation.py:bezier_cubic_roots", "src/aaf2/interpolation.py:scale_handle", "src/aaf2/interpolation.py:cubic_interpolate", "src/aaf2/interpolation.py:calculate_tangent"]}
{"id": "C64", "title": "The offset map of a speed map starts at the base frame and follows the speed", "statement": "generate_offset_map(speed_map, start, end) gives the offset of every half frame from start to end, in order. The offset at the center, the whole part of the time of the first keyframe, is its base frame; from one half frame to the next the offset grows by the distance at the speeds in between, so that a constant speed gives a straight line and any other one stays between those of the slowest and the fastest speed. The offset of a half frame does not depend on the range asked for.", "quantifier": "all speed maps, all interpolations, all ranges before, around and after the center, all base frames, in exact arithmetic", "why_tests_cant": "the sums run over any number of half frames and start elsewhere for each range; tests see single maps", "anchors": ["src/aaf2/misc.py:generate_offset_map", "src/aaf2/interpolation.py:integrate_iter", "src/aaf2/interpolation.py:mc_trapezoidal_integrate"]}
{"id": "C65", "title": "Stream properties hold the bytes written to them, wherever the object goes", "statement": "Reading a stream property of an object (open('r').read()) returns the bytes last written to that property of that object, whatever else happened: the object or others were put into the file, taken out, put elsewhere, copied within the file or to another one, saved, dropped and read again, or the file was closed and opened again. Changing a copy does not change the original. A closed file has exactly the streams of the objects in it, each listed among the properties of its object, and nothing under /tmp. In a file open for reading only, nothing but taking out an object changes a stream.", "quantifier": "all sequences of these operations on any number of objects, properties and files, all contents, all sector sizes", "why_tests_cant": "the bytes are moved between temporary and final places in the container on every change of owner, by name and through several caches; tests follow single streams on single ways", "anchors": ["src/aaf2/properties.py:StreamProperty", "src/aaf2/core.py:AAFObject.attach", "src/aaf2/core.py:AAFObject.detach", "src/aaf2/core.py:AAFObject.copy", "src/aaf2/file.py:AAFObjectManager.create_temp_dir", "src/aaf2/file.py:AAFObjectManager.remove_temp", "src/aaf2/file.py:AAFFile.close", "src/aaf2/file.py:AAFFile.__exit__"]}
{"id": "C66", "title": "Rationals from texts and floats have the value that is given", "statement": "A rational made from a text that is a number (integer, fraction, decimal, with or without exponent and blanks) has exactly that value; a written numerator and denominator are kept unreduced; any other text raises ValueError, and str() of a rational is read as the same rational. A rational made from a float is the closest fraction whose denominator fits in an int32 if its numerator fits as well, so a frame rate a/b given as a float is stored as a/b; a float that needs a larger numerator is scaled.", "quantifier": "all texts, all numerators and denominators, all finite floats", "why_tests_cant": "texts are unbounded, there are 2^64 floats, and being closest is a statement about all other fractions", "anchors": ["src/aaf2/rational.py:AAFRational.__new__"]}
{"id": "C67", "title": "Imports into master mobs keep apart, in their own slots, with their own essence", "statement": "After any imports of DNxHD streams and WAVE files into master mobs (whose slots have the numbers 1, 2, ...), failing ones among them, every import that succeeded is in the file: its slot has the next number of its master mob and a clip of slot 1 of a new source mob, which has the tape clip or an empty clip, both with the given length or that of the file, the edit rate, the length in the descriptor, and as essence exactly the frames of its file (none if offline). Following the clip leads to the source clip and then to the tape. A file with essence is always imported unless its tape clip was used before. An import that fails changes nothing that was in the file.", "quantifier": "all sequences of imports into any master mobs, all files, lengths, edit rates, tapes", "why_tests_cant": "the slots, clips, mobs and essence data refer to each other by numbers that depend on all imports before; tests import one or two files", "anchors": ["src/aaf2/mobs.py:MasterMob.import_dnxhd_essence", "src/aaf2/mobs.py:MasterMob.import_audio_essence", "src/aaf2/mobs.py:SourceMob.create_essence", "src/aaf2/mobs.py:Mob.create_source_clip"]}
{"id": "C68", "title": "Saving loses nothing: a refused save can be repeated, and what was saved is what was set", "statement": "Whatever objects a program attaches, detaches, changes, reads and saves, and whenever objects that were not changed are dropped from the cache: every value it reads is the last one it set. A save (or close) is refused exactly if some changed object misses a property its class requires, has a property without a value or does not fit in its 16-bit fields; then all changes are still in memory and still to be saved, and every continuation gives the same values, exceptions and saved objects as without the refused save. After a save that succeeds, a reader finds exactly the objects with their last values, each with every property its class requires.", "quantifier": "all histories of attaching, detaching, setting, reading, saving, closing and cache evictions, all classes and required properties, all values", "why_tests_cant": "depends on which objects the garbage collector or the cache bound drops at each moment and on which objects were written before the one that is refused", "anchors": ["src/aaf2/file.py:AAFObjectManager.write_objects", "src/aaf2/file.py:AAFObjectManager.add_modified", "src/aaf2/file.py:AAFFile.save", "src/aaf2/file.py:AAFFile.close", "src/aaf2/core.py:AAFObject.validate", "src/aaf2/core.py:AAFObject.write_properties"]}
{"id": "C69", "title": "An object is a map from property names to values, and a kept property stands for its name", "statement": "Setting obj[name].value, reading it, setting None, del obj[name], name in obj and obj.getvalue(name) treat an object as a map from the names of its class to values: the last value set is read, what was removed is not there, other names raise KeyError. A property object that a program keeps (p = obj[name]) reads and writes the value of that name.", "quantifier": "all classes, all objects read from a file (also with properties that the class does not know), all sequences of calls with any number of kept properties", "why_tests_cant": "several property objects for one name can exist at the same time, and what each of them does depends on the order in which they were made, set and removed", "anchors": ["src/aaf2/core.py:AAFObject.get", "src/aaf2/core.py:AAFObject.__getitem__", "src/aaf2/core.py:AAFObject.__delitem__", "src/aaf2/core.py:AAFObject.getvalue", "src/aaf2/properties.py:Property.value", "src/aaf2/properties.py:Property.add_pid_entry"]}
{"id": "C70", "title": "The mobs of a file are found by kind, by their ids, by clips and by essence", "statement": "After any sequence of adding and removing mobs and essence data and changing their ids and usage codes, content.mobs.get(id) and a source clip's mob give the mob in the file that has that id; mastermobs, compositionmobs and sourcemobs give each mob of their kind once and in order, toplevel the compositions with that usage; mob.essence and essencedata.mob are inverse; the index that is saved has the ids of the mobs; a refused change changes nothing. (A refused change of an id loses the mob, later calls then change the id of another mob, and an id that is taken drops a mob: shown. Clips and essence do not follow a changed id: shown.)", "quantifier": "all files, all sequences of calls on mobs and essence data, all ids", "why_tests_cant": "the key of a mob and its id are stored twice and must agree after every history, including refused calls", "anchors": ["src/aaf2/content.py:ContentStorage", "src/aaf2/mobs.py:Mob.mob_id", "src/aaf2/mobs.py:SourceMob.essence", "src/aaf2/essence.py:EssenceData.mob", "src/aaf2/components.py:SourceReference.mob", "src/aaf2/properties.py:StrongRefSetProperty.swap_unique_key", "src/aaf2/properties.py:Property.value"]}
{"id": "C71", "title": "Values in the header of a linked MXF file are read as they are stored", "statement": "When an MXF file is linked, a name is the stored text up to its terminator; a comment is the stored text in either byte order without the zeros at its end, or the stored number; rates, line maps and pixel layouts are the stored numbers; a time stamp is the stored date if it is one of the calendar (up to parts of a second), and the present time otherwise. (Numbers in big-endian comments are left out and negative rationals are read as large positive ones: shown.)", "quantifier": "all texts, all signed 32-bit numbers, both byte orders, all layouts of at most eight components, all line maps, all time stamps", "why_tests_cant": "there are unboundedly many texts and line maps, and the calendar and the byte orders have cases that sample files do not have", "anchors": ["src/aaf2/mxf.py:decode_utf16be", "src/aaf2/mxf.py:decode_indirect_value", "src/aaf2/mxf.py:decode_rational", "src/aaf2/mxf.py:decode_video_line_map", "src/aaf2/mxf.py:decode_pixel_layout", "src/aaf2/mxf.py:decode_timestamp"]}
{"id": "C72", "title": "Definitions keep the name, pid, identifier, type and flags that they were given", "statement": "A property definition that is registered is accepted exactly if its name can be encoded and its pid has 16 bits; after any sequence of reading it, setting its name and pid, refused calls, saving and opening the file again, each of its fields is what was given or last set; so are name, identifier and concreteness of a class. (Empty names cannot be read, names with a U+0000 change when the file is opened again, and changes to a definition that was saved before are lost: shown.)", "quantifier": "all names, pids, identifiers, types and flags, all sequences of calls", "why_tests_cant": "the fields are kept twice, as stored bytes and as copies, and must agree after every history and for every name", "anchors": ["src/aaf2/metadict.py:PropertyDef", "src/aaf2/metadict.py:ClassDef", "src/aaf2/properties.py:add_string_property", "src/aaf2/properties.py:add_bool_property", "src/aaf2/properties.py:add_u16le_property", "src/aaf2/properties.py:add_auid_property", "src/aaf2/file.py:AAFObjectManager.write_objects"]}
{"id": "C73", "title": "The streams of an object have a fixed layout, byte for byte", "statement": "The property stream, the table of weak reference paths, the index streams of vectors, sets and weak reference arrays, and the value of a weak reference are exactly the bytes of a table of little-endian fields given apart from the code (byte order mark, version 32, counts, ids, sizes, keys, in this order), and a stream with these bytes, whoever wrote it, is read as what they mean; a property stream is refused exactly if it has a stored form that is not among the eleven known ones, and of an id that is there twice the last value counts. Reading and writing cannot both change without this being noticed.", "quantifier": "all property tables, path tables, indexes and references whose numbers fit their fields", "why_tests_cant": "a round trip test accepts any layout on which writer and reader agree, and comparing with sample files settles only the samples", "anchors": ["src/aaf2/core.py:AAFObject.write_properties", "src/aaf2/core.py:AAFObject.read_properties", "src/aaf2/file.py:AAFFile.write_reference_properties", "src/aaf2/properties.py:StrongRefSetProperty.write_index", "src/aaf2/properties.py:WeakRefProperty.encode"]}
