{"id": "C01", "title": "Integer fields survive a save/load and out-of-range values are refused", "statement": "For every fixed-width integer field kind (8/16/32/64 bit, signed or unsigned, boolean) and both byte orders: a value that fits is written as exactly the field width and reads back as the same value with nothing else consumed; a value that does not fit makes the write raise and produces no field bytes; a read with fewer bytes than the field width raises.", "quantifier": "all integers, both byte orders, all following bytes", "why_tests_cant": "The value space is infinite/2^64; tests sample a handful of values.", "anchors": ["src/avb/ioctx.py:read_u8..write_u64be", "src/avb/ioctx.py"]}
{"id": "C02", "title": "Text fields survive a save/load", "statement": "Any text that can be encoded in the legacy (Mac Roman) encoding or in UTF-8, whose encoded form is not exactly 65535 bytes, reads back as the same text with leading and trailing NULs removed, and consumes exactly the bytes written; text whose encoded form is longer than 65535 bytes is refused; text with characters outside the encoding is refused.", "quantifier": "all strings, both encodings, both byte orders, all following bytes", "why_tests_cant": "Strings are unbounded; the failing length is a single value in 65536 and depends on the encoded length.", "anchors": ["src/avb/ioctx.py:read_string", "src/avb/ioctx.py:write_string", "src/avb/ioctx.py"]}
{"id": "C03", "title": "A text field of 65535 encoded bytes is saved but not recoverable", "statement": "It is not the case that every accepted text reads back: for every text whose encoded form has exactly 65535 bytes, the write succeeds but the read returns the empty text and leaves the 65535 data bytes unread, so the rest of the record is misparsed.", "quantifier": "every text with encoded length 65535", "why_tests_cant": "One length in 65536; it looks like any other long string.", "anchors": ["src/avb/ioctx.py:read_string", "src/avb/ioctx.py:write_string"]}
{"id": "C04", "title": "Identifiers, rectangles, colours, timestamps survive a save/load", "statement": "UUIDs, 32-byte mob ids, rectangles, colours and timestamps written in either byte order read back as the same value and consume exactly the bytes written; a damaged framing byte is rejected.", "quantifier": "all 16/32-byte identifiers, all in-range component values, both byte orders", "why_tests_cant": "2^128 / 2^256 identifiers; byte order mistakes only show for non-palindromic fields.", "anchors": ["src/avb/ioctx.py:read_mob_id", "src/avb/ioctx.py:write_mob_id", "src/avb/ioctx.py:read_uuid", "src/avb/ioctx.py:read_rect", "src/avb/ioctx.py:read_rgb_color"]}
{"id": "C05", "title": "Edit rates are stored as a decimal mantissa/exponent with bounded error", "statement": "Writing an edit rate always terminates with an exponent between -6 and 0; integer rates other than 5994 that fit 32 bits read back exactly; the value read back is within a stated error bound of the original unless its scaled value is 5994. It is not the case that rates always survive: 5994, 599.4 and 5.994 all read back as 59.94, and saving/opening repeatedly without edits can change the rate each time (24000/1001 does).", "quantifier": "all finite double precision rates", "why_tests_cant": "There are 2^64 doubles and the scaling loop rounds at each step.", "anchors": ["src/avb/ioctx.py:read_exp10_encoded_float", "src/avb/ioctx.py:write_exp10_encoded_float"]}
{"id": "C06", "title": "Every object class survives a save/load of its chunk", "statement": "For each registered object class except the plain track group: if writing an object succeeds and its texts are not 65535 bytes long, and it is not one of the objects characterised in C40, then reading the produced bytes with the reader of the same byte order succeeds, consumes exactly those bytes and yields the same field values (references replaced by the chunk numbers they were mapped to, missing lock numbers by 0, empty component names by None, texts without outer NULs, edit rates by their stored value, grouped properties as in C42); objects that were themselves read from a file come back unchanged.", "quantifier": "all 66 registered classes, all field values, both byte orders, all reference mappings", "why_tests_cant": "Each class has many optional fields, variable length lists and nested records; combinations are unbounded.", "anchors": ["src/avb/components.py", "src/avb/trackgroups.py", "src/avb/misc.py", "src/avb/essence.py", "src/avb/attributes.py", "src/avb/bin.py"]}
{"id": "C07", "title": "The byte order chosen for a file does not change its content", "statement": "Writing the same object big endian and little endian produces chunks of the same length, succeeds or fails for the same objects, and reading each back in its own byte order gives equal objects.", "quantifier": "all classes, all field values", "why_tests_cant": "A byte order mistake in one rarely used optional field is invisible unless that field is exercised with asymmetric values.", "anchors": ["src/avb/ioctx.py:AVBIOContext", "src/avb/file.py:AVBFile.write_object"]}
{"id": "C08", "title": "Saving is stable: write after read after write gives the same bytes", "statement": "If an object was written to a chunk, read back and written again with the identity reference mapping, the second chunk has the same bytes as the first, provided no text of it begins or ends with a NUL and its edit rates are stored stably; the same holds for whole files and any number of further saves. Without those two conditions the bytes can change: concrete objects are given.", "quantifier": "all classes, all field values", "why_tests_cant": "Needs every combination of optional fields; tests compare a few sample files.", "anchors": ["tests/test_write.py", "src/avb/file.py:AVBFile.write_object"]}
{"id": "C09", "title": "A truncated chunk is never accepted", "statement": "If the reader of any class other than the plain track group accepts a chunk completely, then it raises on every strict prefix of that chunk, and on an extension of it stops at the same place; the plain track group reader accepts no complete chunk at all.", "quantifier": "all classes with an end marker, all accepted chunks, all truncation points", "why_tests_cant": "Lenient short reads of raw data make acceptance of truncated data plausible; there are as many prefixes as bytes.", "anchors": ["src/avb/file.py:AVBFile.read_object", "src/avb/ioctx.py:read_assert_tag"]}
{"id": "C10", "title": "Every successfully written chunk is terminated and its size field is exact", "statement": "Whenever writing an object into a file succeeds, the bytes appended are the reversed/plain class id, a 32 bit size equal to the number of payload bytes, and a payload ending in 0x03; plain track groups and data descriptors write no end marker, so they are only saved when their last byte happens to be 3. Distinct classes have distinct ids.", "quantifier": "all classes, all objects, both byte orders", "why_tests_cant": "Depends on every optional-field path of every class.", "anchors": ["src/avb/file.py:AVBFile.write_object", "src/avb/file.py"]}
{"id": "C11", "title": "Optional extension fields: unknown ones are rejected, order does not matter for presence", "statement": "A record in whose extension area an unknown extension tag occurs is rejected with an error; an absent extension field stays absent after load and a present one stays present.", "quantifier": "all extension tags 0..255, all classes with an extension area", "why_tests_cant": "256 tags per class times all positions in the extension list.", "anchors": ["src/avb/ioctx.py:iter_ext"]}
{"id": "C12", "title": "Saving then opening a file restores the same object graph", "statement": "For any acyclic object graph whose objects can be written, opening the saved bytes and following references from the root gives a graph isomorphic to the original (same classes, same field values, same sharing).", "quantifier": "all finite acyclic object graphs, both byte orders", "why_tests_cant": "Graphs are unbounded in size and shape.", "anchors": ["src/avb/file.py:AVBFile.write", "src/avb/file.py:AVBFile.read_object", "src/avb/core.py:walk_references"]}
{"id": "C13", "title": "References in a saved file always point to an earlier chunk", "statement": "In a saved file every non-null reference stored in chunk k is a chunk number smaller than k and at least 1, the root is the last chunk, and the number of chunks in the header equals the number of chunks present.", "quantifier": "all object graphs for which saving succeeds", "why_tests_cant": "Requires an invariant over the whole traversal.", "anchors": ["src/avb/file.py:AVBFile.write", "src/avb/core.py:walk_references", "src/avb/ioctx.py:write_object_ref"]}
{"id": "C14", "title": "Each reachable object is saved exactly once and unreachable ones are not saved", "statement": "The chunks of a saved file are in bijection with the objects reachable from the content bin (including the bin), regardless of how often an object is referenced.", "quantifier": "all finite acyclic object graphs", "why_tests_cant": "Sharing patterns are unbounded.", "anchors": ["src/avb/core.py:walk_references", "src/avb/file.py:AVBFile.write"]}
{"id": "C15", "title": "Cyclic object graphs cannot be saved", "statement": "If an object graph has a reference cycle reachable from the root then saving never completes (the traversal recurses without bound), so no finite amount of resources yields a saved file.", "quantifier": "all object graphs with a reachable cycle, any recursion limit", "why_tests_cant": "Non-termination is not testable.", "anchors": ["src/avb/core.py:walk_references"]}
{"id": "C16", "title": "File header survives a save/open", "statement": "Byte order, object count, root, last-save timestamp, and creator version (truncated and padded to 30 characters) written in the header are recovered on open.", "quantifier": "all header values, both byte orders", "why_tests_cant": "All header values and creator strings of any length.", "anchors": ["src/avb/file.py:AVBFile.write_header", "src/avb/file.py:AVBFile.__init__"]}
{"id": "C17", "title": "The chunk table found on open is the layout that was written", "statement": "For any list of chunks written one after another, opening finds exactly their positions, classes and payloads, also for classes it does not know, and rejects files whose object count exceeds the chunks present.", "quantifier": "all chunk lists", "why_tests_cant": "Unbounded number and size of chunks.", "anchors": ["src/avb/file.py:AVBFile.__init__", "src/avb/file.py:read_chunk", "src/avb/file.py:AVBFile.chunks"]}
{"id": "C18", "title": "Looking an object up twice gives the same object while it is alive or modified", "statement": "As long as an object is held by the user, or stored in an object that is, or has been modified, looking up its id returns that very object, after any sequence of lookups, creations, edits and garbage collections; a lookup never returns an object with another id, and one object is never returned for two ids; a first lookup gives exactly what the file has, and a failing one changes nothing.", "quantifier": "all operation histories", "why_tests_cant": "Histories and garbage collection points are unbounded.", "anchors": ["src/avb/file.py:AVBFile.read_object", "src/avb/file.py:AVBFile.add_modified", "src/avb/core.py:AVBObject.mark_modified"]}
{"id": "C19", "title": "New objects never take the id of an existing one", "statement": "In any history of creations, lookups, edits and garbage collections every created object gets an id that differs from every id in the file and every earlier created object; it is found under this id for ever after.", "quantifier": "all operation histories", "why_tests_cant": "Unbounded histories.", "anchors": ["src/avb/core.py:AVBObject.__init__", "src/avb/file.py:AVBFile.next_object_id"]}
{"id": "C20", "title": "Attribute edits are not lost by garbage collection", "statement": "After assigning a property of a file object, every later lookup of its id sees the assigned value until it is assigned again, whatever is garbage collected in between; edits of reference lists that know their owner are kept too (with the methods of C21 that report them; not by += on a list held in a variable). Edits of other lists (those of objects produced by the accelerated reader, and plain lists such as the tracks) and of helper objects can be lost: for every object of every file there is such a history.", "quantifier": "all histories of edits, lookups and garbage collections", "why_tests_cant": "The loss needs a garbage collection between edit and save.", "anchors": ["src/avb/core.py:AVBObject.__setattr__", "src/avb/core.py:AVBRefList", "src/avb/_ext.pyx:read_sequence"]}
{"id": "C21", "title": "Reference lists behave like ordinary lists", "statement": "append, extend, +=, insert, assignment and deletion of items and slices, pop, indexing, len and iteration on a list of object references give, in any sequence, the same results, exceptions and contents as on a plain list of the objects. A slice and reversed give the raw ids instead of objects; remove, in, index and count compare raw ids, so objects held by reference are not found; clear, sort and reverse leave the list unchanged. Every change is reported as a modification, except += on the list itself and popping a reference that cannot be looked up.", "quantifier": "all operation sequences and all list contents", "why_tests_cant": "Unbounded operation sequences and index values including negative ones.", "anchors": ["src/avb/core.py:AVBRefList"]}
{"id": "C22", "title": "Attribute sets behave like ordered dictionaries and survive a save/load", "statement": "Any sequence of item assignments, deletions and lookups on an attribute set agrees with an insertion-ordered dictionary; after save and load the same keys in the same order have the same values (names and texts without outer NULs and below 65535 bytes); names that differ only in outer NULs are merged by a save; a value of bytes type is refused on save.", "quantifier": "all operation sequences, all keys and values", "why_tests_cant": "Unbounded sequences.", "anchors": ["src/avb/attributes.py:Attributes"]}
{"id": "C23", "title": "Sequence length and positions are consistent", "statement": "The positions reported by a sequence are the running sums of component lengths with transitions overlapping their neighbours, and the sequence length equals the sum of non-transition lengths minus transition lengths; successive components that are no transitions lie at positions differing by the length of the first, and the last position plus the last length equals the reported length (just the position, if the last component is a transition).", "quantifier": "all lists of components", "why_tests_cant": "Unbounded lists.", "anchors": ["src/avb/components.py:Sequence.length", "src/avb/components.py:Sequence.positions"]}
{"id": "C24", "title": "Finding the component at a time", "statement": "In a sequence laid out as usual (transitions between two clips that hold them, empty fillers anywhere) nearest_component_at_time returns, for a time within the sequence, the transition that holds it if there is one, else a clip that begins before the time and does not end before it (at a cut: the clip that ends); for times at or before the start the first component that is not empty, past the end the last one. In any sequence the component returned lies at the returned position, and IndexError is raised only if there are no components.", "quantifier": "all sequences and all rational times", "why_tests_cant": "Off-by-one errors at every boundary of arbitrarily long sequences.", "anchors": ["src/avb/components.py:Sequence.nearest_index_at_time", "src/avb/components.py:Sequence.nearest_component_at_time"]}
{"id": "C25", "title": "Finding the control point at a time", "statement": "nearest_index terminates on every list of control points with defined times and returns an index in range; for strictly increasing times it is the last point at or before the time, or the first point if all are later; for repeated times it is one at the time or the last before it. Without points, or with a point without a time, ValueError is raised and nothing else.", "quantifier": "all lists of control points, all times, every rounding of the times", "why_tests_cant": "Binary search boundary errors appear at particular sizes/positions.", "anchors": ["src/avb/components.py:ParamClip.nearest_index"]}
{"id": "C26", "title": "Keyframed values: clamped outside, exact at control points, between neighbours", "statement": "value_at returns the first or last value outside the keyframed range whatever the interpolation; constant interpolation returns the value of the last point at or before the time; linear interpolation the straight line between the neighbours, at a point exactly its value under every rounding; Bezier interpolation the height of the curve of the two points and their tangents at that time; cubic interpolation always has a value and stays between the values of the neighbours. Unknown kinds, references and points at equal times raise.", "quantifier": "all lists of control points with increasing times, all real times", "why_tests_cant": "Infinitely many times between control points.", "anchors": ["src/avb/components.py:ParamClip.value_at", "src/avb/interpolation.py"]}
{"id": "C27", "title": "Mob ids and integers correspond one to one and order consistently", "statement": "The integer of a mob id is the big-endian value of its 32 bytes. Setting the integer and reading it back gives the same integer for all 0 <= n < 2^256, reading then setting gives the same bytes; integers out of range are not refused but reduced modulo 2^256. Comparison is a total order, the lexicographic order of the bytes, consistent with equality.", "quantifier": "all 32-byte ids and all integers", "why_tests_cant": "2^256 values.", "anchors": ["src/avb/mobid.py:MobID", "src/avb/utils.py:int_from_bytes", "src/avb/utils.py:bytes_from_int"]}
{"id": "C28", "title": "Mob id URN text round trip", "statement": "Printing a mob id as a URN gives the prefix and eight groups of four bytes in hexadecimal, in straight or half swapped order. Every spelling of such a text (letter case, points and dashes, with or without the prefix) parses to the id it stands for, whatever the id was before. Printing and parsing gives the same id exactly unless the id prints straight though its text reads as half swapped; every such id shares its URN with another id; ids made by MobID.new() are never such ids. A text with another number of digits is refused without effect; other malformed texts can be accepted or leave the id half changed. Exactly those texts are accepted of which 64 characters are left when prefixes, points, dashes and 0x are taken out and these, cut as the layout says, are numerals for the bytes of the id.", "quantifier": "all 32-byte ids", "why_tests_cant": "The exceptions are a 2^-56 fraction of ids.", "anchors": ["src/avb/mobid.py:MobID.urn"]}
{"id": "C29", "title": "Mob id fields are independent and dictionary conversion is lossless", "statement": "Setting one field of a mob id changes that field to the value and leaves all other fields unchanged, values that do not fit are refused; the fields determine the id; from_dict(to_dict(m)) equals m whatever the id was before; a dictionary that fits is reproduced by to_dict with missing entries zero, any other is refused.", "quantifier": "all ids, all field values", "why_tests_cant": "2^256 ids.", "anchors": ["src/avb/mobid.py:MobID.from_dict", "src/avb/mobid.py:MobID.to_dict"]}
{"id": "C30", "title": "Finding a mob by id in a bin", "statement": "A freshly opened bin finds a mob by its id exactly when one is listed, and if several have the id the last one listed; this stays so through any sequence of lookups and add_mob calls, each of which appends exactly one item. Once a lookup has filled the cache, edits of the item list or ids assigned to mobs have no effect on the answers (for ids changed in place see C75). If an item has no mob the first lookup raises and later ones silently see only the items before it.", "quantifier": "all bins and all histories of additions and lookups", "why_tests_cant": "Histories are unbounded and the cache is filled lazily.", "anchors": ["src/avb/bin.py:Bin.find_by_mob_id", "src/avb/bin.py:Bin.add_mob"]}
{"id": "C31", "title": "Listing the mobs of a bin partitions its items", "statement": "When every item has a mob of a known type, mobs yields the mobs of the items in order; the composition and master mob listings are the sublists with that mob type, the remaining ones being source mobs; toplevel contains exactly the composition mobs with usage code 0. At an item without mob (for which mobs yields None) or with a mob of unknown type the listings raise, after producing what comes before.", "quantifier": "all bins", "why_tests_cant": "Unbounded item lists.", "anchors": ["src/avb/bin.py:Bin.mobs", "src/avb/bin.py:Bin.toplevel", "src/avb/bin.py:Bin.compositionmobs"]}
{"id": "C32", "title": "Dependency listing of a mob", "statement": "The dependency iteration ends exactly if there is no endless chain of dependencies from the mob: on a finite acyclic mob graph it terminates, and if a mob that is reached depends on itself it never does. When it ends it lists no mob twice, exactly the mobs reachable through source clips, and every mob after the mobs it depends on.", "quantifier": "all mob graphs", "why_tests_cant": "Unbounded graphs; non-termination cannot be tested.", "anchors": ["src/avb/trackgroups.py:TrackGroup.dependant_mobs"]}
{"id": "C33", "title": "The accelerated reader agrees with the portable reader", "statement": "For every chunk of a little endian file that the portable reader of an accelerated class accepts and whose stored counts of tracks, track times and parameters are not negative, the accelerated reader accepts it too and yields the same field values; only negative numbers of the listed fields appear as unsigned ones, and texts and attribute names keep their outer NULs, an empty component name being an empty text instead of None. Files saved by the library always meet the condition on counts.", "quantifier": "all byte strings, all files, all saved object graphs", "why_tests_cant": "All byte strings.", "anchors": ["src/avb/_ext_core.cpp", "src/avb/_ext.pyx", "src/avb/file.py:AVBFile.read_object"]}
{"id": "C34", "title": "The accelerated reader accepts damaged chunks that the portable reader rejects", "statement": "Damage that the portable reader reports passes unnoticed with the accelerated reader: bytes after the end of any chunk of any accelerated class, an overwritten end marker of effects, media and digital image descriptors, an empty set of attributes without end marker, references to objects the file does not have in any place of any accelerated class, a selected track that does not exist, and media descriptors cut short (the missing fields become zeros); a sequence whose component part is damaged loses it silently.", "quantifier": "all files and chunks of the named kinds", "why_tests_cant": "Needs comparing acceptance over all byte strings.", "anchors": ["src/avb/_ext_core.cpp:read_u8", "src/avb/_ext_core.cpp"]}
{"id": "C35", "title": "A save interrupted before its last step is recognisable as incomplete", "statement": "If saving stops at any point before the final header update, the file on disk either cannot be opened or opens with no content; it never opens with a partial bin. Once the header update has completed the file opens with the full content.", "quantifier": "all crash points of all saves (at byte granularity)", "why_tests_cant": "Every byte position of every save is a crash point.", "anchors": ["src/avb/file.py:AVBFile.write"]}
{"id": "C36", "title": "A copy has the content of the original and shares no objects with it", "statement": "When copying an object succeeds, everything found from the original by following property names, attribute names and list positions is found in the same way from the copy, with the same data, classes, lengths and names; properties the original lacks are as the constructor makes them. Every object found in the copy is new, has a new id of its own and is registered for saving, reference lists belong to the new objects, and byte buffers of attributes are new; whatever existed before is unchanged, even when copying raises, and later changes to objects of one side are not seen on the other. Mutable values that are not objects of the file (mob ids, dictionaries) are shared, and objects used twice are copied twice. Copying succeeds exactly if no constructor involved raises, there are no null references in lists and attributes, attributes are no bytes, and no object is part of itself; then it does not depend on the depth of calls.", "quantifier": "all object graphs, all constructors that only create new things, all later edits", "why_tests_cant": "Tests copy a few sample objects; sharing shows only when one of the two is edited later.", "anchors": ["src/avb/core.py:AVBObject.copy", "src/avb/core.py:AVBRefList.copy", "src/avb/attributes.py:Attributes.copy", "src/avb/file.py:AVBFactory.from_name"]}
{"id": "C37", "title": "Media kind, usage and mob type names are one-to-one with codes", "statement": "Setting media kind by name and reading it back gives the name for each known name, unknown names are refused, and distinct integer codes have distinct names; usage names are distinct except that all unlisted codes are called unknown; mob type names and codes determine each other, other names and codes raise.", "quantifier": "all integer codes and all names", "why_tests_cant": "All integers / all strings.", "anchors": ["src/avb/components.py:Component.media_kind", "src/avb/trackgroups.py:Composition.usage", "src/avb/trackgroups.py:Composition.mob_type"]}
{"id": "C38", "title": "Track presence flags describe exactly the fields stored", "statement": "For every subset of optional track fields, the stored flag word determines exactly which fields follow, so that any subset is recovered; flag words with undefined bits are refused.", "quantifier": "all 2^10 subsets and all values", "why_tests_cant": "Combination of subsets and values.", "anchors": ["src/avb/trackgroups.py:Track.flags", "src/avb/trackgroups.py:TrackGroup.read"]}
{"id": "C39", "title": "Bins with any number of items can be saved and loaded", "statement": "A bin of up to 65535 items that is not marked as large is stored in the small form, all others in the large form; at every count below 2^32 a bin whose parts can be saved can be saved, and the loaded item list equals the saved one.", "quantifier": "all item counts", "why_tests_cant": "The switch happens at one count that is too large for tests.", "anchors": ["src/avb/bin.py:Bin.read", "src/avb/bin.py:Bin.write"]}
{"id": "C40", "title": "Objects that save but do not load", "statement": "The classes and field values for which a save succeeds but the load fails or differs are characterised: audio plugin effects with a plugin count other than one, selectors whose selected index is out of range, parameter clips with an unknown value type and no points, and bin views with 32768 or more format descriptors are refused on load; timeline markers whose colour does not have three parts, user parameters with another byte order and bins with more than six sift settings come back changed or not at all. 65535-byte texts are in C03, track groups in C09.", "quantifier": "all values of the named fields, all data for the converse (whatever is read has the stated shape)", "why_tests_cant": "Tests only load what they saved with ordinary values.", "anchors": ["src/avb/trackgroups.py:AudioSuitePluginEffect", "src/avb/trackgroups.py:Selector", "src/avb/misc.py:Marker", "src/avb/components.py:ParamClip", "src/avb/bin.py:BinViewSetting", "src/avb/bin.py:Bin", "src/avb/misc.py:CFUserParam"]}
{"id": "C41", "title": "A new mob has the type asked for", "statement": "Creating a mob with one of the known mob type names gives a mob of that type with no tracks, edit rate 25, the given time and an id made of a fresh UUID, so different UUIDs give different mobs; the name argument is ignored (the mob is named after its type) and an unknown type name raises TypeError.", "quantifier": "all argument combinations", "why_tests_cant": "Tests create mobs with the usual arguments only.", "anchors": ["src/avb/trackgroups.py:Composition.__init__"]}
{"id": "C42", "title": "Properties stored in groups survive only as complete groups", "statement": "The three boxes of an image descriptor, its framing box and reformatting option, its colour primaries and coding equations, and the component and alpha references of an RGBA descriptor come back after a save exactly when the group they are stored in is complete; an incomplete group is silently dropped or, when its leading member is present, refused.", "quantifier": "all presence combinations and values", "why_tests_cant": "Tests set complete groups; there are exponentially many presence combinations.", "anchors": ["src/avb/essence.py:DIDDescriptor.write", "src/avb/essence.py:RGBADescriptor.write"]}
{"id": "C43", "title": "Objects of another file must not be linked into a file", "statement": "A save that succeeds stores only objects of the file being saved; with distinct ids every reachable object belongs to it, so a foreign object makes the save fail. If an object of another file has the id of an object already saved, the save succeeds, the foreign object is silently left out and references to it lead to the other object.", "quantifier": "all object graphs; a concrete graph for the violation", "why_tests_cant": "Whether ids collide depends on the history of both files.", "anchors": ["src/avb/file.py:AVBFile.write", "src/avb/ioctx.py:write_object_ref"]}
{"id": "C44", "title": "The final header update is not atomic", "statement": "If saving is interrupted inside the final header update of a file with fewer than 256 objects, the file on disk has no content or is the complete file. This does not hold for larger files: a save stopped after 5 of the 8 bytes leaves a file that opens with another object as its content.", "quantifier": "all byte positions inside the update; for the violation all little-endian saves of 256 or more objects whose number is not a multiple of 256", "why_tests_cant": "The interruption must hit one byte position of the header update.", "anchors": ["src/avb/file.py:AVBFile.write"]}
{"id": "C45", "title": "A saved file cut short anywhere is refused on open", "statement": "Opening any strict prefix of the bytes of a completely saved file that has a content raises an error.", "quantifier": "all saved files with a content and all cut positions", "why_tests_cant": "There is one cut position per byte of every file.", "anchors": ["src/avb/file.py:AVBFile.__init__", "src/avb/file.py:AVBFile.write"]}
{"id": "C46", "title": "Integrating a speed curve", "statement": "integrate lists every half frame from start to end once, in order; the totals grow by the integral over each half frame and equal the base frame at the whole time of the first control point; for a constant speed they are linear. The end must not be before the start or the first point, and the span must not be a single moment: these raise ValueError, TypeError, NameError.", "quantifier": "all curves that have a value everywhere, all integer spans", "why_tests_cant": "Off-by-one errors at either end or at the reference point depend on the span.", "anchors": ["src/avb/components.py:ParamClip.integrate", "src/avb/interpolation.py:integrate_iter", "src/avb/interpolation.py:mc_trapezoidal_integrate"]}
{"id": "C47", "title": "Damaged chunks are reported", "statement": "Looking up an object of an opened file gives an object exactly when the reader of the class named in its chunk accepts the payload and consumes all of it; unknown classes, payloads with bytes left over, payloads cut short, files that end inside a payload and indices beyond the table raise.", "quantifier": "all files, all chunks", "why_tests_cant": "All byte strings.", "anchors": ["src/avb/file.py:AVBFile.read_object"]}
{"id": "C48", "title": "What has been loaded can be saved again, and which loaded objects cannot", "statement": "An object of any class that was loaded from any bytes, whoever wrote them, can be saved again exactly if its rates fit the stored format, its UTF-8 texts are short enough, and the properties its writer insists on are there (a mob id in source clips, compositions, media slots and the like; the UTF-8 name of a bin reference; at most 16383 fields; alignment values below 2^63). Saved and loaded again it is what it was, but for the numbers of the objects it refers to (rates as stored, a lock number on every track). Files with a mob reference without mob id, a bin reference without UTF-8 name, or a rate of 1e10 load but cannot be saved.", "quantifier": "all classes, all byte strings accepted by the reader, all reference numberings", "why_tests_cant": "Sample files only have the variants that one version of the editor writes; the optional blocks of 66 classes combine without bound.", "anchors": ["src/avb/components.py", "src/avb/trackgroups.py", "src/avb/essence.py", "src/avb/misc.py", "src/avb/bin.py", "src/avb/ioctx.py"]}
{"id": "C49", "title": "Opening and saving without edits keeps everything", "statement": "For every file that opens, whoever wrote it: if the objects reachable from its root load, meet the conditions of C48 and do not form a cycle, then saving succeeds given enough recursion depth, and the saved file opens and holds exactly the reachable objects, each once, equal but for renumbered references, under the same root.", "quantifier": "all files, all object graphs, both byte orders", "why_tests_cant": "Tests resave a handful of sample files.", "anchors": ["src/avb/file.py:AVBFile.write", "src/avb/file.py:AVBFile.__init__", "src/avb/file.py:AVBFile.read_object"]}
{"id": "C50", "title": "A save keeps the edits and changes nothing else", "statement": "If some objects of an opened file are edited and new ones are added, the file saved from it holds exactly the objects reachable after the edit: the edited and new objects with their current content, all others as they were in the original file, but for renumbered references.", "quantifier": "all files, all finite sets of edited or added objects, all contents of these that can be saved", "why_tests_cant": "The edited set, the contents and the surrounding file are unbounded.", "anchors": ["src/avb/file.py:AVBFile.write", "src/avb/file.py:AVBFactory.create_instance", "src/avb/core.py"]}
{"id": "C51", "title": "Working on an opened file in any order loses no edit", "statement": "Open a file, then look up objects, create objects, edit them (every edit reported to the object's owner) and let the garbage collector drop unreferenced ones, in any order, and save: at any moment a lookup gives the content last assigned to the object, and that of the file if there is none; the save gives a file that holds exactly this for every reachable object. What was looked up or collected, and when, makes no difference to the bytes.", "quantifier": "all files, all finite histories of lookups, creations, reported edits and collections", "why_tests_cant": "When the collector runs relative to edits and lookups is not under the control of a test.", "anchors": ["src/avb/file.py:AVBFile.read_object", "src/avb/file.py:AVBFactory.create_instance", "src/avb/file.py:AVBFile.write", "src/avb/core.py:AVBRefList.mark_modified", "src/avb/file.py:AVBFile.add_modified"]}
{"id": "C52", "title": "The data of every object are made of the blocks of its class", "statement": "The payload of every chunk that is loaded, and of every chunk that is saved, is a sequence of blocks, one for each class it inherits from, each starting with 2 and the version of that class, followed by a final 3. Data descriptors and plain track groups are written without the 3 (and a save then refuses them unless their last byte happens to be 3, see C10), and data descriptors are loaded without it; plain track groups are never loaded. Payloads with another start, without the end or too short for the blocks are refused.", "quantifier": "all classes, all payloads", "why_tests_cant": "Every byte string of every class.", "anchors": ["src/avb/utils.py", "src/avb/components.py", "src/avb/essence.py", "src/avb/trackgroups.py", "src/avb/misc.py", "src/avb/bin.py", "src/avb/attributes.py"]}
{"id": "C53", "title": "Which data are accepted for an object", "statement": "The payload of a chunk is loaded exactly if it has the wire format of its class: the fields in order, of the right sizes and tags, counts and sizes in the allowed ranges followed by that many items, texts that can be decoded, references within the object table, rates within range, and any number of the known optional fields in any order; every other payload raises. What is saved has the format, and no payload with the format is the beginning of a longer one.", "quantifier": "all 66 classes, all byte strings, both byte orders", "why_tests_cant": "Every byte string of every class; readers that check too little only show on damaged data.", "anchors": ["src/avb/ioctx.py", "src/avb/attributes.py", "src/avb/bin.py", "src/avb/components.py", "src/avb/trackgroups.py", "src/avb/misc.py", "src/avb/essence.py", "src/avb/file.py:AVBFile.read_object"]}
{"id": "C54", "title": "The legacy words stored beside a mob id belong to it", "statement": "In the data saved for a source clip, composition, media slot locator, position (plain, break out box, DID, MPEG), mob reference or marker, the two 32 bit words that old programs read instead of the mob id are bytes 16-19 and 20-23 of the mob id the object has when saved, in the byte order of the file, right after the inherited blocks and the version tag; an object of these classes without a mob id is not saved. An audio suite effect with a mob id has the same two words in the first optional field after its plugin.", "quantifier": "all objects of the ten classes, all mob ids, both byte orders", "why_tests_cant": "pyavb itself ignores the words on load, so no test that saves and loads again can see them; they must be right for every mob id and object content.", "anchors": ["src/avb/components.py:SourceClip.write", "src/avb/trackgroups.py:Composition.write", "src/avb/trackgroups.py:AudioSuitePluginEffect.write", "src/avb/misc.py:MSMLocator.write", "src/avb/misc.py:Position.write", "src/avb/misc.py:MobRef.write", "src/avb/mobid.py:MobID.material"]}
{"id": "C55", "title": "Saving any number of times, with failures, does not disturb the work or the other files", "statement": "In any history of lookups, creations, reported edits, garbage collections and calls of AVBFile.write to paths other than the one that was opened, what a write leaves at its path and whether it raises depend only on the work done before it: earlier writes, to whatever paths, in whatever byte order, finished or failed, make no difference. Every path holds what the last write to it left; all other files, the opened one included, stay as they were; lookups go on giving the current contents. A write after failed writes succeeds under the same conditions as a first write. Writing to the path that was opened gives the same file if all objects to be saved are in memory; if one is not, the write raises and the opened file is lost (it is emptied before the object is read).", "quantifier": "all files, all histories of work and saves of any length, all paths, byte orders, recursion budgets, roots", "why_tests_cant": "The state left behind by a save (next_chunk_id, ref_mapping, octx, cache) and by a failed save can only be exercised for a few sequences of calls; that no sequence matters is a statement about all histories.", "anchors": ["src/avb/file.py: AVBFile.write, AVBFile.write_object, AVBFile.read_object", "src/avb/core.py: walk_references", "src/avb/ioctx.py: write_object_ref"]}
{"id": "C56", "title": "The chunk table of any opened file, and listing by class id", "statement": "In any file that opens (saved by this library or not), chunks() does not raise: it gives the header and one chunk per number up to the count in the header, the first starting where the header ends and each other where the one before ends, every chunk header inside the file. After any history of work iter_class_ids(ids) yields exactly the objects whose class id in the file is in ids, in the order of their numbers, each once and with its present content (None first if ids has OBJD), and changes no content; the class id in the file of an object that loads is that of its class. If one of these objects cannot be loaded, the ones before it are yielded and then the exception of loading it is raised. Objects made since the file was opened are never listed. The same holds for a loop over iter_class_ids in which any work (lookups, creations, reported edits, collections) is done between the rounds: it skips and repeats nothing and gives every object with the content it has in that round.", "quantifier": "all byte strings that open, all histories of work before and between the rounds of the listing, all lists of class ids", "why_tests_cant": "Tests list a few sample files without work before; that nothing is skipped, repeated, stale or misplaced has to hold for every table and every state of the cache.", "anchors": ["src/avb/file.py: AVBFile.chunks, AVBFile.iter_class_ids, AVBFile.read_chunk, AVBFile.read_object, AVBFile.__init__"]}
{"id": "C57", "title": "A new file with any number of new mobs saves and opens again", "statement": "AVBFile() without a path, then any number n up to 65535 of content.add_mob(create.Composition(mob_type=...)), then write: the save succeeds in both byte orders. The saved file opens and has exactly 4 + 2n objects: the bin (root) with its items in the order added, its view with the default columns, the attributes of both, and per mob the composition with the id, kind and times it was made with and its own empty attributes. More generally, after making a new file and any history of lookups, creations, reported edits and collections, the save succeeds if the objects to be saved can be written and have no cycle, and holds exactly what is reachable with its last content. Nothing else can be looked up in a new file.", "quantifier": "all numbers of mobs, all mob types, mob ids, times, bin uids, both byte orders, all histories of work on a new file", "why_tests_cant": "The tests build a few small files; that the defaults of every constructor can be stored and come back, for any number of mobs and after any history, is a statement about all of them.", "anchors": ["src/avb/file.py: AVBFile.__init__, AVBFile.setup_empty, AVBFactory.from_name", "src/avb/bin.py: Bin.__init__, Bin.add_mob, BinViewSetting.__init__, SiftItem", "src/avb/trackgroups.py: Composition.__init__"]}
{"id": "C58", "title": "create.N() makes an object of class N; a kept maker need not", "statement": "After any history, f.create.N() for a registered class N makes an object of class N, with the next free number if the class has an id; a name that is not registered raises ValueError when called and takes no number. Over any history the numbers given are consecutive, each given once, in the order of making, inner objects of constructors included; everything made before stays. A maker kept in a variable (mk = f.create.N) is not bound to N: after another name was accessed it makes that class, and a second call makes an object of class N exactly if the constructor of N makes no other objects; for bins, bin views and all components it makes an Attributes.", "quantifier": "all class names, all histories of accesses and calls", "why_tests_cant": "Tests call create.N() at once for a few classes; which class a call makes depends on the whole history of accesses on the factory, including those inside constructors.", "anchors": ["src/avb/file.py: AVBFactory.__getattr__, AVBFactory.from_name, AVBFactory.create_instance", "src/avb/utils.py: register_class, register_helper_class", "src/avb/bin.py: Bin.__init__, BinViewSetting.__init__", "src/avb/components.py: Component.__init__"]}
{"id": "C59", "title": "The mob and the track a source clip refers to", "statement": "In a bin whose items all have mobs with ids, after any calls of find_by_mob_id and add_mob, clip.mob is the last listed mob with the id the clip names and None if there is none or the clip names none. clip.track is then the first track of that mob that has the index the clip names and a component of the media kind of the clip, and None if there is none. It raises exactly if before that one there is a track without index, or with the index and without component, or with a component that cannot be loaded, or with one that is an attribute set or a list with entries (empty ones are passed). Neither changes the bin's items or mobs.", "quantifier": "all clips, mobs, lists of tracks, bins and histories of calls", "why_tests_cant": "Tests resolve clips of a few sample bins; the order of tracks, missing fields and the state of the lookup dictionary range over all bins and histories.", "anchors": ["src/avb/components.py: SourceClip.mob, SourceClip.track, Component.media_kind", "src/avb/bin.py: Bin.find_by_mob_id", "src/avb/core.py: AVBObject.media_kind"]}
{"id": "C60", "title": "Dates come back to the second, except around clock changes", "statement": "A date assigned to last_modified, creation_time or last_save comes back after save and load in the same time zone equal to the second (microseconds are lost), and in another zone as a moment at which the first zone's clock showed it; dates before 1970 or from 2^32 seconds on are refused. A stored date that is loaded and saved again without an edit keeps its timestamp if its local time occurs only once; of two moments with the same local time (clocks going back) at least one is moved by the difference of the offsets, while the local time shown stays and further saves move nothing. With one clock change by d seconds back at T these are exactly the moments from T-d until T+d; with a change forward there are none, but the skipped local times never come back as assigned.", "quantifier": "all time zones (any offset at every moment, any choice by mktime between two moments), all dates and timestamps, both byte orders", "why_tests_cant": "A test runs in one time zone, usually UTC on a build machine, and on a few dates; the loss shows only in zones with clock changes, within one or two hours a year.", "anchors": ["src/avb/ioctx.py:AVBIOContext.datetime_to_timestamp", "src/avb/ioctx.py:AVBIOContext.read_datetime", "src/avb/ioctx.py:AVBIOContext.write_datetime", "src/avb/trackgroups.py:Composition", "src/avb/file.py:AVBFile.write_header"]}
{"id": "C61", "title": "Properties are assigned and read by name; unknown names are refused", "statement": "An object accepts assignment to exactly the properties that its class or a base class declares, except that an essence descriptor accepts those of every descriptor class. No method, constant or slot hides an accepted property. After any sequence of assignments, some of which may raise, an accepted property has the value last assigned to it, or the one it had before, and reading one that never had a value raises AttributeError; get gives the same value, and its default exactly where reading raises. Assigning a name that is neither a property nor an attribute of the class raises AttributeError and changes nothing, except on shape lists, which keep the value outside the properties; read-only attributes and, except on shape lists, methods cannot be assigned.", "quantifier": "all 63 registered classes derived from AVBObject and the 11 helper classes, all names, all values, all sequences of assignments", "why_tests_cant": "The set of names is unbounded and which ones are accepted depends on dictionaries filled while modules are imported and inherited between classes; a misspelled name that is accepted is lost without a trace.", "anchors": ["src/avb/core.py:AVBObject.__setattr__", "src/avb/core.py:AVBObject.__getattr__", "src/avb/core.py:AVBObject.get", "src/avb/utils.py:register_class", "src/avb/utils.py:register_helper_class", "src/avb/essence.py:MediaDescriptor", "src/avb/misc.py:ShapeList"]}
{"id": "C62", "title": "An object copied from one file into another has the same content there, also after a save", "statement": "obj.copy(other_file), at any moment of any work on the other file, changes none of the objects that file had, gives the copies numbers that were not in use, and from the copy the same content is seen as from the original: the same values, and at corresponding places references to objects with the same content, to any depth; properties the original lacks are absent too, apart from those its constructor sets (mob id and creation time of a mob, mob id of a source clip, format descriptors of a bin view). If the copy is then put somewhere under the root, other work goes on, and the file is saved, the save succeeds and the reopened file has the same content at the place of the copy, provided that the originals can be written and the rest of the file meets the usual conditions. With enough depth of calls a copy succeeds exactly if every object under the original can be loaded, none has a null reference in a list or attribute set, a bytes attribute, or AudioSuite plug-ins, and there is no cycle; otherwise it raises. An AudioSuite effect that was loaded from a file can never be copied.", "quantifier": "all source object graphs, all objects of all classes, all histories of work on the receiving file before and after the copy, both byte orders of the saved file", "why_tests_cant": "The content of the copy depends on every class of object in the graph, on which optional properties each has, and on constructors that set properties on their own; the numbers of the copies depend on all earlier work; tests copy a handful of sample mobs and do not reopen the result.", "anchors": ["src/avb/core.py:AVBObject.copy", "src/avb/core.py:AVBRefList.copy", "src/avb/attributes.py:Attributes.copy", "src/avb/file.py:AVBFactory.from_name", "src/avb/file.py:AVBFile.write"]}
{"id": "C63", "title": "The accelerated readers stay inside the payload, whatever its bytes", "statement": "Given any payload, the accelerated reader of a class reads only bytes of the payload and either gives properties or raises an exception; there is no undefined behaviour. The exception is the reader of colour image descriptors (CDCI): it too reads only bytes of the payload, but a descriptor whose valid box is cut short by a wrong tag leads it to take eight numbers from an array with fewer, which is undefined. Payloads that the portable reader accepts, with a line map size that is not negative, never do. So in a whole file only little endian CDCI chunks that the portable reader refuses, or with a negative line map size, can be the cause.", "quantifier": "all accelerated classes, all byte sequences as payload, all files", "why_tests_cant": "The readers work with raw pointers and ignore some return codes; whether any damaged or malicious payload leads outside of the buffer is a question about all byte sequences.", "anchors": ["src/avb/_ext_core.cpp:Buffer", "src/avb/_ext_core.cpp:read_attributes", "src/avb/_ext.pyx:int_array2dict", "src/avb/_ext_core.cpp:read_cdci_descriptor"]}
{"id": "C64", "title": "Damaged files raise one of a few known exceptions", "statement": "Opening any bytes either succeeds or raises one of eight exceptions: struct.error, AssertionError, ValueError, UnicodeDecodeError, OverflowError, Exception, IndexError, NotImplementedError; no AttributeError, KeyError, TypeError or endless loop. Up to the loading of the content only the first three are possible. Loading an object raises IndexError only for a number that is not in the file, NotImplementedError only for an unknown class id, a bare Exception only for attribute lists. Each of the eight does occur.", "quantifier": "all byte sequences, all object numbers, all 66 classes", "why_tests_cant": "A program that handles foreign files must know which exceptions to catch; the damage that files can have is unbounded.", "anchors": ["src/avb/file.py:AVBFile.__init__", "src/avb/file.py:AVBFile.read_object", "src/avb/utils.py:AVBObjectRef", "src/avb/attributes.py:Attributes.read"]}
{"id": "C65", "title": "Following references in an opened file never leaves the file", "statement": "Every reference in an object that was loaded, from whatever bytes, is None or the number of a chunk in the table of the file. So in any file that opened, every object reached from the content by following references, each loaded in turn, has its chunk header inside the file, and loading it does not raise IndexError. A chunk in which nothing is wrong but a reference beyond the table raises ValueError; beyond that the number of objects in the file has no influence on what a chunk is loaded as.", "quantifier": "all byte sequences that open, all chains of references of any length", "why_tests_cant": "It has to hold for every reference field of all 66 classes in damaged files too; a single reader without the check would let a stray number through.", "anchors": ["src/avb/file.py:AVBFile.read_object", "src/avb/utils.py:AVBObjectRef", "src/avb/ioctx.py:read_object_ref"]}
{"id": "C66", "title": "After close() what is in memory can still be used, edited and saved; nothing else can be loaded", "statement": "After close(), or after the with block, an object that is in memory is found as before, with the content last assigned or that of the file; every object that was made or edited, before or after close, is in memory, and what the program refers to stays there. A number in the table of the file whose object is not in memory raises ValueError, other numbers IndexError. A save after close does exactly what it would have done before if all objects to be saved are in memory; if one is not, it raises and leaves a file that does not open or has no content. Listing by class id (iter_class_ids, chunks) reads every chunk header from the file: begun after close it gives at most None, for the header, and then raises ValueError, also if all objects are in memory; a loop that was begun before raises in its next round, whether another object is to come or not, unless the last chunk of the file was already given.", "quantifier": "all files, all histories of lookups, creations, reported edits and garbage collections before and after close, all saves after them", "why_tests_cant": "What is in memory depends on the whole history and on the garbage collector; tests read inside the with block.", "anchors": ["src/avb/file.py:AVBFile.close", "src/avb/file.py:AVBFile.__exit__", "src/avb/file.py:AVBFile.read_object", "src/avb/file.py:AVBFile.read_chunk", "src/avb/file.py:AVBFile.iter_class_ids", "src/avb/file.py:AVBFile.write"]}
{"id": "C67", "title": "Default lists are shared by all new objects of the process", "statement": "The default rectangle and colours of bins, aspect ratio and line map of image descriptors, and the column dictionaries of bin views exist once per process. An object whose property was never assigned, loaded or copied shows that one value; a change in place through one such object shows at all of them, in all files, made before or after, and at no other object. A property that was assigned, loaded or copied (lists; column dictionaries stay with the original) is the object's own: changing it in place shows nowhere else, and assigning it never does. New objects have the documented defaults exactly as long as no default was changed in place before.", "quantifier": "all histories of making, loading, copying, assigning and changing in place, over all objects of all files of a process", "why_tests_cant": "The state is global and hidden: whether a new bin has the defaults depends on everything done in the process before; each test starts with fresh defaults and looks at one object.", "anchors": ["src/avb/core.py:AVBPropertyDef", "src/avb/core.py:AVBObject.__init__", "src/avb/core.py:AVBObject.copy", "src/avb/bin.py:default_bin_columns", "src/avb/bin.py:BinViewSetting.__init__", "src/avb/bin.py:Bin", "src/avb/essence.py:DIDDescriptor"]}
{"id": "C68", "title": "What is loaded is no larger than the file", "statement": "Read by the portable readers, an object has no more list elements, characters and bytes together than its chunk has bytes, and the chunk lies inside the file. All objects that can be loaded from a file, each counted once with eight bytes for its chunk header, hold no more than the file has bytes. Counts and sizes stored in a damaged or hostile file can therefore not blow up what is kept in memory. The accelerated readers do not keep this: a file of 69 bytes is accepted with a list of any length below 2^30.", "quantifier": "all byte strings opened as a file, all 66 classes, all sets of objects loaded", "why_tests_cant": "The bound is about every count and length field of every class with every hostile value; a test tries a few broken files, and the sizes that matter are too large to try.", "anchors": ["src/avb/file.py:AVBFile.read_object", "src/avb/file.py:AVBFile.__init__", "src/avb/ioctx.py:AVBIOContext.read_string", "src/avb/attributes.py:Attributes.read", "src/avb/_ext_core.cpp:read_did_descriptor"]}
{"id": "C69", "title": "Saving a file that was opened with the accelerated readers", "statement": "A file is opened with the accelerated readers and saved without edits. If every reachable object could be read and saved without these readers, the names in each set of attributes differ also without outer NULs, and no stored count, media kind, usage code, component width or integer control point is negative, the save succeeds and the new file holds exactly the objects that the program would have seen without them, with the same references, in either byte order. The order of chunks can differ: references of effects and compositions are followed tracks last. A file with one of these values (other than counts) negative is loaded, but every save of it fails.", "quantifier": "all files, all 66 classes, all byte orders of the new file, all recursion limits above a bound, all headers", "why_tests_cant": "The two readers build different Python objects for every record; that the difference does not matter for saving has to hold for every content of every class and every object graph, and a test compares a few files.", "anchors": ["src/avb/_ext.pyx:process_poperties", "src/avb/_ext.pyx:ints2dict", "src/avb/file.py:AVBFile.read_object", "src/avb/file.py:AVBFile.write", "src/avb/core.py:walk_references", "src/avb/ioctx.py:AVBIOContext.write_s16le"]}
{"id": "C70", "title": "The bytes of a saved file, and exactly which files can be opened", "statement": "A file can be opened if and only if it consists of the header (byte order mark, magic, the marks of the document and of the object table, count, root, order word, time, creator) and as many chunk headers as it says, each at the end of the one before; what is known after opening (count, root, positions, creator, time) is what stands there. The order word need not agree with the byte order, the reserved bytes may be anything, and a file without objects may end within the creator. The bytes of a saved file are such a header, with the number of objects as count and as root, followed by the chunks of exactly the objects reachable from the content, each once, the content last, each with its class tag, its length and its data, in which every reference is the number of an earlier chunk. Time codes are stored with six zeros between rate and start, and format descriptors of bin views with their length twice; a descriptor of more than 32765 bytes cannot be saved.", "quantifier": "every sequence of bytes; every content, graph of objects, byte order, date and creator", "why_tests_cant": "Tests open the files of a sample and save a few graphs; which byte sequences are accepted and what all saved files look like concerns every sequence and every graph.", "anchors": ["src/avb/file.py:AVBFile.__init__", "src/avb/file.py:AVBFile.read_header", "src/avb/file.py:AVBFile.write_header", "src/avb/file.py:AVBFile.write", "src/avb/file.py:AVBFile.write_object", "src/avb/components.py:Timecode.write", "src/avb/bin.py:BinViewSetting.write"]}
{"id": "C71", "title": "Printing objects", "statement": "str(x) of an object of an opened file returns a text, when enough nested calls are allowed, if and only if every object printed inside of it (values of parameters and entries of attributes, and so on) can be loaded, no composition among them has a type other than 1, 2 or 3, and no parameters have each other as values without end. A set of attributes that holds itself is printed with three dots. Otherwise the exception is that of the object that cannot be loaded, the ValueError of the composition, or RecursionError. The text begins with the class id and the name of the class, so that objects of different classes have different texts, and shows the name, type, effect, media kind, length, track, start, mob id, uuid and value; lists of references show number, id and place of each chunk without loading the items. Nothing outside of the object is loaded, and more calls do not change the text. A save refused because of an object of another file raises ValueError also when that object cannot be printed.", "quantifier": "every opened file, every object in it, every number of allowed nested calls, every formatting of addresses and floats", "why_tests_cant": "Printing follows references through files that may be damaged or cyclic; that it always returns or raises one of these exceptions, and when, concerns every graph.", "anchors": ["src/avb/core.py:AVBObject.__repr__", "src/avb/utils.py:AVBObjectRef.__repr__", "src/avb/core.py:AVBPropertyData.items", "src/avb/trackgroups.py:Composition.mob_type", "src/avb/file.py:AVBFile.write_object"]}
{"id": "C72", "title": "Names of parameters, of the types of their values, and media kinds of tracks", "statement": "Every row of the table of known parameters is the row of exactly one uuid, and item.parameter_name of a parameter with this uuid is the name in that row. A parameter whose uuid is in no row has the 36 character text of its uuid as name; a name is the text of a uuid exactly in this case, and then of this uuid and no other. For a parameter loaded from any file item.value_type_name is never 'unknown', and the value is a 32 bit int, a double or a reference as it says. Both names survive a save and reopen in either byte order. A track is the one meant by a source clip exactly if it has the index the clip names, a component, and track.media_kind is the media kind of the clip; the track returned by clip.track has the media kind of the clip.", "quantifier": "all uuids, all rows of the table, all parameters of all files, all saved object graphs, all clips and tracks", "why_tests_cant": "Tests look up a few known parameters; that no two rows collide, that every key is the canonical text of a uuid (a key with an upper case digit would never be found) and that every other uuid is named by itself are statements about the whole table and all 2^128 uuids.", "anchors": ["src/avb/misc.py:455-532", "src/avb/parameter_uuids.py:2-738", "src/avb/trackgroups.py:47-50", "src/avb/components.py:322-327"]}
{"id": "C73", "title": "Integers where a double is stored", "statement": "A parameter, control point or point property of type double may be given a Python int. Saving stores the double nearest to it (of two equally near ones that with the even last bit), and after reopening the value is that float. Integers up to 2^53 in absolute value, and all integers that are the value of some double, are stored exactly. Integers of 2^1024 - 2^970 or more in absolute value raise struct.error, so that a graph with such a value cannot be saved; no other integer does.", "quantifier": "all integers, all object graphs, both byte orders", "why_tests_cant": "There are infinitely many integers, and rounding errors show only at ties and at the limits of the exponent.", "anchors": ["src/avb/ioctx.py:380-386", "src/avb/ioctx.py:451-457", "src/avb/components.py:618-668", "src/avb/misc.py:ParameterItem.write"]}
{"id": "C74", "title": "Saving objects with properties that were never assigned", "statement": "Every class has a fixed list of mandatory properties; so have the helper objects in its lists (bin items, sift settings, control points and their properties, effect parameters, plug-ins and chunks, equalizer bands). An object is written exactly if all of these have values and nothing else is wrong with it, and then with the data of its values; otherwise AttributeError is raised, or what is raised before the missing value is read. Objects made by create.N() can be saved as they are for exactly 22 of the 66 classes. For each other class there is a list of the properties that have to be assigned, and assigning those is enough. A whole file is saved exactly if no object reachable from its content lacks a mandatory property; otherwise write raises and what is left on the disk, at any moment, is refused or opens as a file without objects and content.", "quantifier": "all classes, all objects, all sets of unassigned properties of objects and helper objects, all object graphs, all crash points", "why_tests_cant": "Which combination of unassigned properties lets a save through, and what is left behind if not, depends on all subsets of properties of all objects of a graph; tests try a few.", "anchors": ["src/avb/core.py:178-211", "src/avb/file.py:325-370", "src/avb/trackgroups.py", "src/avb/misc.py", "src/avb/components.py", "src/avb/essence.py", "src/avb/bin.py"]}
{"id": "C75", "title": "Mob ids changed in place", "statement": "A mob id is an object: changing one of its fields changes the id of every mob and clip that holds the object and of no other. After x.mob_id = y.mob_id, or if x is a copy of y, the two have equal ids through any later history in which neither is assigned an id; an id made for one mob alone and not passed on can be changed without effect on others. In bins, everything changed before the first lookup counts, and as long as nothing is changed lookups are those of C30 however the objects are shared. After a lookup, changing the id i in place to j (of another hash) in the object of the first item with that id makes lookups of i give nothing, even if another item has the id, and leaves all others as they were, so that the mob is found under neither id; changing it in another object leaves all lookups as they were. Assigning a new id and adding the mob makes it found under the new id in every case.", "quantifier": "all bins, all histories of lookups, additions, assignments, copies and changes in place, all hash functions", "why_tests_cant": "Which mobs share an id depends on the whole history, and the outcome of a lookup on when the cache was filled and on the hashes.", "anchors": ["src/avb/mobid.py:MobID", "src/avb/core.py:AVBObject.copy", "src/avb/bin.py:Bin.find_by_mob_id", "src/avb/bin.py:Bin.add_mob"]}
{"id": "C76", "title": "Working on a file opened with the accelerated readers, and saving it", "statement": "Let a file be opened with the accelerated readers, and looked up, created, edited and collected objects follow in any order. Looking up an object gives the content last assigned to it, and, if none was, exactly what the accelerated reader makes of its chunk (or its failure). Two histories with the same last assignments give the same bytes (or the same failure) on saving: lookups and collections do not matter. If there are no cycles, the reachable edited and created objects can be written, the others meet the conditions of C69, and the number of objects fits, the save succeeds, and the saved file holds what the same work without the accelerated readers would leave (C51). If a reachable object that was not assigned holds a negative value the accelerated reader misreads, every save fails.", "quantifier": "all files, all histories of lookups, creations, edits and collections, all objects reachable from the root, both byte orders of the saved file", "why_tests_cant": "What a save writes depends on which objects were edited, still cached or collected, and on every value the accelerated reader returned on the way.", "anchors": ["src/avb/file.py:AVBFile.read_object", "src/avb/_ext.pyx:process_poperties", "src/avb/core.py:AVBObject.mark_modified", "src/avb/file.py:AVBFile.write"]}
{"id": "C77", "title": "Any Python values in properties: what is stored and what makes a save fail", "statement": "Assigning a property never fails, whatever the value; the save decides. For every class, its properties that are stored as integers, booleans, texts, references, edit rates, rectangles and colours, and those of its helper objects, take these values: integer properties integers and bools, but no float (not even 50.0), None or text; boolean properties every value, by its truth value, so the text 'False' is true; text properties texts and every false value (None, 0, an empty list or attribute set), stored as the empty text, but no text with surrogate code points (a file name that is not UTF-8); references None and objects; edit rates numbers; rectangles and colours sequences that begin with enough integers. An object is written exactly if each of these properties holds a value it takes and the object with the values so converted can be written, and the data are those of that object; it is read back as that object. Values that are stored alike can be exchanged in any number of properties without changing the data or the exception. An optional property that was assigned, also None, is stored. A file is saved exactly if this holds for every object reachable from its content; what a failing save leaves on the disk, at any moment, is refused or opens as a file without objects and content.", "quantifier": "all 66 classes, all their covered properties including those of helper objects, all assignments of Python values, all object graphs, both byte orders, all crash points", "why_tests_cant": "290 properties and every possible Python value in each, in any combination; a test has to pick values, and the accidents (truth values, bools as integers, false values as empty texts) are in the combinations nobody picks.", "anchors": ["src/avb/core.py:178-211", "src/avb/ioctx.py:100-194", "src/avb/ioctx.py:300-324", "src/avb/file.py:325-370", "src/avb/components.py", "src/avb/trackgroups.py", "src/avb/misc.py", "src/avb/essence.py", "src/avb/bin.py"]}
{"id": "C78", "title": "An AVB file inside another file", "statement": "avb.open of a file object reads from the position where the object stands. If it stands at the beginning of an AVB file, whatever comes before it, opening succeeds exactly if opening the bytes from there on does (with the same exception if not), and gives the same: byte order, header, every object with the portable and with the accelerated readers, every chunk with its class id, size and data; only the positions of the chunks count from the beginning of the whole. A file object at its end is refused. If the file has objects and no chunk is cut, bytes after it do not matter either; in particular a saved file put between any other bytes opens with the graph that was saved.", "quantifier": "all bytes before, all bytes after, all files, all objects of the file", "why_tests_cant": "Positions are used in every later read; that they are all relative to the right place has to hold for every offset, every chunk and every object.", "anchors": ["src/avb/file.py:AVBFile.__init__", "src/avb/file.py:is_fileobject_like", "src/avb/file.py:AVBFile.read_chunk", "src/avb/file.py:AVBFile.read_object"]}
{"id": "C79", "title": "The hex dump of a chunk", "statement": "chunk.hex(), which is also printed when an object cannot be loaded, is in a little endian file the hex text of the bytes of the chunk in the file, with class id and size. In a big endian file it is not: class id and size are printed as in a little endian file, followed by the data as they are; it agrees with the file only if both happen to be the same backwards. From the dump the class id, the size and the data can be told in either case. The function read_chunk(root, f) at the place of a chunk gives this chunk, and at the end of a chunk the next one.", "quantifier": "all files, all chunks, all data", "why_tests_cant": "A test on little endian samples cannot see the difference; that a dump determines the chunk is a statement about all pairs of chunks.", "anchors": ["src/avb/file.py:AVBChunk.hex", "src/avb/file.py:AVBChunk.read", "src/avb/file.py:read_chunk", "src/avb/ioctx.py:AVBIOContext.reverse_str"]}
{"id": "C80", "title": "Refused assignments to mob id fields, and mob ids of another size", "statement": "On a mob id of 32 bytes an assignment to a field that fits does what C29 says. One that does not fit raises the exception of C29 and keeps the size, but not always the id: a number out of range for Data1, Data2 or Data3 leaves that field zero, a list of the right length with a bad value for SMPTELabel or Data4 leaves the values before it followed by zeros, and in every case the other fields are as before; a bad value for length or an instance byte and a list of the wrong length leave the id as it was. The constructor takes any non-empty bytes. An id that has not 32 bytes cannot be written (IndexError below 16 bytes, else ValueError); it has a urn exactly if it has at least 32 bytes, that of the first 32; it has no dictionary below 24 bytes and between 24 and 31 one that no id takes; comparisons are those of a total order between ids of one size only. Assigning int, or material if there are at least 16 bytes, gives an id of 32 bytes again.", "quantifier": "for every byte string, integer, list of integers, uuid, dictionary, byte order and text", "why_tests_cant": "tests assign values that fit to ids of 32 bytes; what is left after an exception, and every other size, are unbounded families of cases", "anchors": ["src/avb/mobid.py:178-190", "src/avb/mobid.py:199-297", "src/avb/mobid.py:299-411", "src/avb/utils.py:51-94", "src/avb/ioctx.py:254-273"]}
{"id": "C81", "title": "Lengths and positions of sequences, whatever their components are", "statement": "`Sequence.length`, `positions`, `nearest_index_at_time` and `nearest_component_at_time` work on the objects of the file. A sequence has a length exactly if no chain of sequences in it goes on without end and every component, of it and of the sequences in it, can be loaded, is not None and has a length; it is then the sum of the lengths of all of them, transitions counted negative, and it stays the same when the components of a nested sequence are put in its place. A sequence inside of itself never has a length. In a file, whatever its bytes, two more nested calls than there are objects are always enough. When all components have lengths, positions and nearest components are those of C23 and C24. Otherwise `length` raises the exception of the first component that has none; `positions` yields the components before it (and it, if it is there and no transition) and then raises; and a search for a time that lies before is not disturbed.", "quantifier": "for every lookup of objects (in particular every file), every sequence, any nesting, any time", "why_tests_cant": "Nesting depth, cycles and the place of a broken component are unbounded; that exactly these conditions decide is a statement about all object graphs.", "anchors": ["src/avb/components.py:181-232", "src/avb/core.py:94-134", "src/avb/core.py:208-213", "src/avb/utils.py:21-41"]}
{"id": "C82", "title": "Dependencies of a mob over the objects of a file, with everything that can fail", "statement": "`mob.dependant_mobs()` walks the references of the mob and of each mob it meets, and looks the mob ids of the source clips up in the bin that is the content of the file. For a mob of a bin whose mobs have ids, no two the same: at any time what has been yielded are different mobs that the mob depends on (a source clip with their id can be reached along references), each after all those it depends on itself; this holds also when an exception has ended the iteration. It ends without exception exactly if the references of the mob and of all mobs it depends on can be walked and no chain of dependencies goes on without end, and then all of them have been yielded. An exception is always that of walking the references of one of these mobs, and it is raised whenever there is such a mob and the chains end. A content that is no bin, or a bin with an item without mob, stops the iteration at the first clip with a mob id, before anything is yielded.", "quantifier": "for every heap of objects (in particular every file), every bin, every mob of it, any number of rounds", "why_tests_cant": "The graph of mobs, the graphs of their objects and the place of an object that cannot be loaded are arbitrary; the order of the yields has to hold at every moment of the iteration.", "anchors": ["src/avb/trackgroups.py:228-254", "src/avb/core.py:136-163", "src/avb/components.py:314-319", "src/avb/bin.py:372-379", "src/avb/bin.py:391-394"]}
{"id": "C83", "title": "Loops over reference lists and bins that change meanwhile", "statement": "An iterator over a reference list that has given k items gives next the object of the item that is then at position k, whatever calls changed the list in between; it ends when there is none, raises when that item cannot be loaded, and after the end or an exception gives nothing more, even if the list grows or is repaired. It never changes the list. If the list is only added to, the objects of the list as it finally is come from the first on, none left out and none twice. A loop whose body never makes the list longer ends within as many rounds as the list had items; one whose body appends never ends, and one that inserts in front gives the first object for ever. Replacing the present item in the body is safe: every object comes once and the list holds the replacements. Taking the first item off in the body, or removing the present one from a list of objects, skips every second item without an exception; removing the present one from a list that was read (which holds references) raises ValueError in the first round and changes nothing. `for mob in bin.mobs` with `add_mob` in the body never ends unless the bin is empty.", "quantifier": "for every list of references, raw ids, nulls and objects, every interleaving of calls with steps of the iterator, every body of a loop of the given kind, any number of rounds", "why_tests_cant": "The interleavings of edits and steps are unbounded, and that a loop never ends cannot be seen in any run.", "anchors": ["src/avb/core.py:80-134", "src/avb/bin.py:381-394"]}
{"id": "C84", "title": "Walking references while the objects change", "statement": "walk_references is a generator, and its caller may change the objects between two yields. With nothing changed it yields the objects below the first one in depth-first order, each after what is inside it, raises nothing, and ends exactly if there is no way from the object back to an object on the way, or on for ever. What it does from a moment on depends only on what its loops still have before them: the properties not yet passed, the keys of the objects on the way, the items of lists not yet passed and all that can be reached from there; every other change makes no difference. So the objects that do not come any more (those with a class id that would not be yielded again if nothing were changed; in a tree: those that were yielded) may be changed in any way, one or all of them, and a property of an object on the way that was passed may be assigned again. If a property is added to an object on the way, or deleted from it, what is inside of it at that moment is still walked and yielded; then RuntimeError is raised, and neither that object nor anything outside of it is yielded. If the walk is in the last property of an object whose data is an OrderedDict, the change goes unnoticed and an added property is not walked; with the plain dictionaries of the accelerated readers it raises there too.", "quantifier": "for every graph of objects and lists, every moment of the walk, every change of the objects between two steps", "why_tests_cant": "The graphs, the moments and the changes are unbounded; a test shows one change in one file.", "anchors": ["src/avb/core.py:35-50", "src/avb/core.py:136-163", "src/avb/_ext.pyx:157-172"]}
{"id": "C85", "title": "Positions of a sequence that is edited while they are taken", "statement": "positions() of a sequence is a generator, and its caller may change lengths and components between its steps. Whatever is changed, the n-th step gives the component that is at index n at that time, and as its position the sum of what the components given before add: a transition takes off the length it has when it is given, any other component adds the length it has when the next one is asked for. The walk ends when there is no component at the index, raises AttributeError at a null component, a transition without length, or after a component whose length is missing when the next one is asked for, and then gives nothing more. So a loop may set the length of the clip it was given, also from its index and position: all positions it gives are those of the sequence as it is at the end. Setting the length of a transition in its own round comes too late: the components after it are given where they were with the old length.", "quantifier": "for every sequence of clips and transitions, all lengths, every change of the sequence and of the lengths between any two steps, every rule for the new lengths", "why_tests_cant": "The sequences, the edits and the moments of the edits are unbounded.", "anchors": ["src/avb/components.py:223-232"]}
{"id": "C86", "title": "Reading properties by name, and what is loaded by it", "statement": "obj.name, obj.property_data[name] and obj.property_data.get(name, default) of a property that is there give what its value stands for (a reference: its object, a null reference: None, anything else: itself) or raise what loading its object raises, whatever the other properties are, and look up no reference but its own. Of a name that is not there they raise AttributeError, KeyError, or give the default (through the same dereferencing). hasattr says no for a property that is there if loading its object raises AttributeError; other exceptions come through. obj.get(name, default) is different: it loads the properties in order up to the one it is asked for, or all if the name is not there. If all can be loaded it agrees with obj.name, or gives the default; a property that cannot be loaded makes it raise for every name after it and every name that is not there, though a default is given. property_data.items() gives the names in order with what the values stand for, up to the first that cannot be loaded, where it raises.", "quantifier": "for all property data, all values and references, every set of objects that can or cannot be loaded, every exception", "why_tests_cant": "Whether get raises depends on all properties before the one asked for and on the state of the file; the combinations are unbounded.", "anchors": ["src/avb/core.py:35-50", "src/avb/core.py:193-213", "src/avb/utils.py:20-27"]}
{"id": "C87", "title": "Loading with check_refs = False", "statement": "With check_refs switched off (f.check_refs = False after opening) every index is accepted as a reference. For every object of every file that was opened, loading it with the check (the default) either raises ValueError or does exactly what it does without: the same object or the same exception. So what is loaded with the check is loaded without, as the same object, and all its references are inside the table of the file; what is loaded without the check and has a reference beyond the table raises ValueError with it. Data that are read in a file of some size are loaded without the check in every file of the same byte order. The converse fails: attributes in which a name comes twice can be refused for a reference that is in no property of the object. Without the check too each object is loaded once: the next lookup gives the same object. A reference beyond the table raises IndexError when it is followed, until an object with that number is made in the program; from then on it leads to that new object. A save that meets such a reference raises and leaves no file with a content; if all objects to be saved can be had with the check the save does the same without. The class_id of a reference is that of its chunk (None beyond the table) with the check, b'NULL' for all references without.", "quantifier": "for all files that open, all chunks with any bytes, all classes, both byte orders, all histories of lookups, creations, edits and collections", "why_tests_cant": "The agreement must hold for all payloads of all classes; where a dangling reference leads depends on how many objects were made since.", "anchors": ["src/avb/ioctx.py:AVBIOContext.read_object_ref", "src/avb/utils.py:AVBObjectRef", "src/avb/file.py:AVBFile.read_object", "src/avb/file.py:105"]}
