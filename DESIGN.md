# A formal model of kytos/python-openflow in Lean 4

`/repo/pyof` encodes and decodes OpenFlow 1.0 (`v0x01`) and 1.3 (`v0x04`) messages and a few network packets. `/verif/lean` holds a
model of that code (`Verif/Model`), specifications that do not mention the model (`Verif/Spec`), helper lemmas (`Verif/Lemmas`) and
the property theorems (`Verif/Props`). `MANIFEST.json` lists the theorems of each property; `properties.jsonl` has the English
statements; `seeded/LOG.jsonl` records the wrong programs the theorems were tried on.

## 1. Trusted base

* **Lean's kernel**, version 4.33.0. No module uses `sorry`, `admit`, `native_decide`, `bv_decide` or a new axiom. `decide +kernel` is
  used for concrete witnesses and for whole finite tables; it is checked by the kernel. Mathlib is not imported.
* **Axioms.** Every manifest theorem depends on a subset of `propext`, `Classical.choice`, `Quot.sound`. 407 of 470 use all three (through
  `omega` and `simp`), the others `propext` and `Quot.sound`, `propext` alone, or none; `AXIOMS.txt` lists them theorem by theorem.
* **The transcription.** That `Verif/Model` says what the Python code does. Each definition cites the file and lines it follows and names
  its simplifications. Nothing checks this mechanically: the project cannot be run here.
* **Python itself** as described in `Model/Py.lean`: `struct.pack`/`unpack` on `B H I Q ns`, `int(text, base)`, `format`, ASCII encoding,
  slices, `bytes` and `list`, exceptions, truthiness, the operator protocol, `IntEnum` lookups, insertion order of dictionaries,
  `copy.deepcopy`, class creation. `random.randint` is an arbitrary number in its range. Memory exhaustion, recursion limits and
  interpreter details are outside the model; threads only occur in C68, C71, C73, C75 and C76, where reading and assigning an attribute are atomic.
* **The specifications**: the wire formats in `Spec/V01.lean` and `Spec/V04.lean` are transcribed from the C structures of the OpenFlow
  specifications (restricted to what the library claims to support), the others from the RFCs named there.

## 2. How the code is modelled

**Values** (`Model/Py.lean`). `Val` is the universe of Python values an attribute can hold: `None`, ints, enum members, bit masks, `str`,
`bytes`, instances of the basic types, structs (`obj cls values`), lists (plain or typed), and `foreign b n`, any other object with
`pack()` returning `b` and `get_size()` returning `n`. Exceptions are values of `Err` and `Res a = Except Err a`. Two members of `Err` are
not exceptions. `diverges` marks a loop that never ends. `unmodelled` marks an input the model says nothing about: a theorem that some
call succeeds, or raises a named exception, therefore excludes it, and C22 shows that decoding never ends there.

**Class attributes** (`Model/Basic.lean`). A struct class holds prototype objects on which the struct calls `pack(value)`,
`get_size(value)`, `unpack(buff, offset)`. `Attr` is the record of exactly these methods, plus `post` (the value left in the instance after
packing, since packing updates length fields), `proto` and `usize` (size of a decoded value). Every basic type is an `Attr`, transcribed
branch by branch on all of `Val`.

| Module | Code |
| --- | --- |
| `Model/Py` | Python built-ins |
| `Model/Basic` | `basic_types.py`: `Pad`, `UBInt*`, `DPID`, `Char`, `IPAddress`, `IPv6Address`, `HWAddress`, `BinaryData`; `GenericType` |
| `Model/Struct` | `GenericStruct.pack/unpack/get_size/_unpack_attribute`, `TypeList`, `FixedTypeList`, over arbitrary field lists |
| `Model/Dict` | instance dictionaries, `__setattr__` history, `_get_attributes` |
| `Model/ListOps` | `append`, `insert`, `extend`, `__init__` of `FixedTypeList`, `ConstantTypeList` |
| `Model/Message` | `Header`, `GenericMessage`, `unpack_message`, `new_message_from_header`, `validate_packet`, `pyof.utils.unpack` |
| `Model/Body`, `Variant`, `AutoLen` | the overridden `pack`/`unpack` shared by several classes: packable bodies, `self.__class__ = cls`, `update_length` |
| `Model/V01`, `Model/V04` | all classes and message tables of the two versions, with their overrides |
| `Model/Libs` | the two versions together |
| `Model/Match01` | `Match.__setattr__`, `fill_wildcards`, `unpack` of v0x01 |
| `Model/Compare` | operators and `is_valid` of `GenericType` |
| `Model/Network` | `ARP`, `VLAN`, `Ethernet`, `GenericTLV`, `TLVWithSubType`, `LLDP`, `IPv4`, `IPv6` |
| `Model/Meta` | `MetaStruct`: class creation, version replacement |
| `Model/Heap` | which objects construction and decoding create, share and change |
| `Model/Equal` | `GenericStruct.__eq__` |
| `Model/Extra` | classes no message contains: queue rate and experimenter properties, `OxmExperimenterHeader`, `ErrorExperimenterMsg`, `UBInt128` |
| `Model/Misc` | `MetaBitMask`, `GenericBitMask`, `UBIntBase.__int__`, `new_message_from_message_type`, `new_message_from_header` |
| `Model/Ctor` | the `__init__` of every message and structure class, as tables of parameters, defaults and attributes generated from the source text |
| `Model/Reuse` | `unpack` as programs on the dictionary of an object that exists already, with exceptions and changes of `__class__` |
| `Model/ReuseNet` | the same for OXM TLVs, the v0x04 match and the network packets |
| `Model/NetNew` | constructors of the network packets, `Ethernet.get_hash` |
| `Model/Threads` | `pack()` of every message class as a program of attribute reads and assignments, for several threads |
| `Model/Sharing` | lists of messages that have objects in common: an assignment is seen at every place of the object |
| `Model/Valid` | `is_valid`, `PacketOut.validate` and `pack(value)` of messages |

**Not modelled.**

* `__repr__`, log output, the text of exceptions; `__str__` except that of the basic types and of the 1.0 header (C77).
* Code that is never called or comes after a `return`: `_validate_attributes_type`, `_attr_fits_into_class`, `_validate_message_length`.
* `GenericMessage.__init_subclass__` (a check of user-defined classes), `MetaBitMask.__dir__`.
* The base classes `SwitchConfig`, `SwitchFeatures`, `AsyncConfig`, `RoleBaseMessage` on their own; their subclasses are.
* Subclasses defined by the user, and objects with attributes added by hand (except in C10, C44, and as `foreign` values).

## 3. How the properties are specified

* `Spec/Fmt`: `Data` is the content of an attribute, independent of how it was assigned (an int, an enum member and a `UBInt` of the same
  number have the content `num n`). A `Fmt` gives the content of a Python value (`den`), the bytes of a content (`enc`) and which contents
  a decoder accepts (`ok`). Formats compose: records, lists, alternatives by type number (`Spec/Union`), structures with their own length,
  zero padding (`Spec/Layout`).
* `Spec/Contract`: `Enc c f` and `Dec c f` say that an attribute implements a format, for every value and in every context (bytes before
  and after). `Spec/Laws`, `Again`, `Errs`, `Stable`, `Size`, `RoundTrip` state the further laws. Each law is proved for the basic types
  and preserved by structs, lists, variants and messages, by induction over field lists, list items and buffers.
* `Spec/Msg`: an OpenFlow packet: version, type, total length, transaction id, body.
* `Spec/V01`, `Spec/V04`: the tables of wire formats. `ok` of a format contains: membership of enumerated fields; right `length` fields
  where the library does not compute them (most 1.3 actions, buckets). There is no condition on text: the content of a name is the
  text that remains after clipping it to the field and cutting it at the first NUL.
* `Spec/Size` (`honest`): the exceptions under which `get_size()` is wrong (C08, C17). `Spec/Stable` (`clean`, `packable`): the accepted
  packets that have a content (C46).

* `Spec/Local`: what decoding may depend on (C47). `Spec/Truth`: which values count as false.
* `Spec/Extra`: the formats of the classes in `Model/Extra`.
* `Spec/Threads`: when a message needs no padding, when a thread has finished or can go on.
* `Spec/Sharing`: which places of messages may hold the same object.
* `Spec/History`: changes of a message, and its life of changes and calls of `pack()`.
* `Spec/Weight`: how much a value holds.

Each theorem with hypotheses has beside it (or at the end of its section) `example`s or definitions named `ex…` which meet them with a
non-trivial case.

## 4. The properties

Each line says what is modelled and how the property is proved. Names of theorems start with the number of the property.

* **C01, C02 (unsigned integers).** `ubPack`, `ubUnpack` on every `Val`, buffer and offset. Exact: succeeds iff the value is a number in range,
  otherwise `PackException`; decodes the number at the offset iff there are enough bytes.
* **C03–C06 (addresses, datapath ids).** Parsing and formatting on lists of characters, including what `int(x, 16)` accepts; both round trips;
  `::` expansion of IPv6; exactly which texts pack, to which bytes, and the exception for each of the others (`C03_mac_values` … `C06_dpid_values`).
* **C07 (text).** `struct` `ns` and ASCII, all lengths and strings.
* **C08 (sizes).** `C08_struct` and `C08_list` for arbitrary classes; `C08_messages`, `C08_bodies`, `C08_variants` for every object of every
  class of the library, whatever its attributes hold, unless `honest` excludes it; `C08_frames`, `C08_packets` for network packets. Each
  excluded case has a counterexample.
* **C09, C11, C12 (structs).** Arbitrary field lists, by induction.
* **C10 (assignment order).** Insertion-ordered dictionary, induction over assignment histories.
* **C13 (termination).** The list loop reports `diverges` as a value; it is unreachable for every list class, buffer and offset, and for the
  whole of `unpack`.
* **C14 (lists).** Induction over the list.
* **C15, C16 (typed lists).** State machines over operations with nested list arguments; invariants; the unchecked `list` methods as
  counterexamples.
* **C17 (headers).** All messages of both versions; `C17_any_object` for objects with any attributes.
* **C18 (validate_packet).** Equivalence with a four-clause predicate.
* **C19, C20 (messages survive).** Generic message theorem and the tables of all classes of both versions. The two v0x04 queue
  configuration messages are registered under codes that differ from their headers and are treated separately (`Props/Queue04.lean`).
* **C21 (dispatch).** All codes.
* **C22 (exceptions).** Law `Errs` for all attributes; exact list of leaking exceptions, each with a witness packet.
* **C23 (packing twice).** Law `Idem` via `post`; for the table of all structures as well, and for any number of calls.
* **C24, C25 (v0x01 Match).** State machine of `__setattr__`; any history; decoding with the side effects of the assignments.
* **C26–C28 (OXM, v0x04 Match).** Exact bytes, contexts, `get_field`.
* **C29–C32 (actions, instructions, hello elements).** Variants and lists.
* **C33 (PacketOut), C34 (error codes).** Exact characterisation of `pack`; splitting; complete code tables.
* **C35–C40 (network packets).** Exact bytes and decoding of every buffer.
* **C41, C42 (statistics, multipart).** Body selected by type number; exact `pack`; round trip; the object is left as it was.
* **C43 (operators).** All integers, bit operations by their two's-complement bits.
* **C44 (version inheritance).** `MetaStruct` on arbitrary class dictionaries.
* **C45 (injectivity), C48 (xid).** Corollaries of the contracts and laws about all buffers.
* **C47 (locality).** Laws `Local` (bytes before the offset) and `Follow` (bytes after the window), proved class by class for all 70
  structures and lists, whatever length they announce; `C47_window` combines them. Two exceptions have witnesses.
* **C46 (stable re-encoding), partial.** Laws `Stab`/`Back`/`Tot`. The code violates the property in the cases excluded by `clean` and
  `packable`, each with a witness.
* **C49 (is_valid).** All wrapped types.
* **C50 (sharing).** Heap model with object identities and an ownership invariant over arbitrary interleavings.
* **C51, C52 (nesting).** Delimited structures nest. Queues, groups and meters do not: at most one entry is ever decoded, for every packet
  (C52 is partial because the code violates it). A group description with a bucket is never decoded, since the list of descriptions goes on
  where its buckets begin and a bucket needs twelve bytes.
* **C53 (content kept).** Law `Keeps` for every message.
* **C54 (structures on their own).** The contracts of all 70 structure and list classes collected in one table.
* **C55 (queue properties), partial.** The rate and experimenter properties are not subclasses of `QueuePropHeader`: packing them is proved
  impossible and decoding them wrong. What holds is proved for queues whose properties have no body.
* **C56 (experimenter errors), partial.** Packing is right; decoding is proved impossible except for type 0.
* **C57 (bit masks), partial.** `MetaBitMask` on arbitrary classes; `names` is always empty because the instance hides the members.
* **C58 (messages from types and headers), partial.** All types, names and headers of both versions; false for unknown names and for
  numbers inside a `UBInt8`.
* **C59 (int()), partial.** All widths; bit mask and plain enum values raise `TypeError`.
* **C60 (constructors).** Parameter binding on arbitrary argument lists; tables for 53 message and 91 structure constructors; composed with
  the message theorem into bytes.
* **C61 (announced lengths), partial.** All classes of the four families; false for `ActionPopMPLS` and the default of
  `InstructionGotoTable`.
* **C62 (deep copies).** `copyObj` in the heap model, with the memo of `copy.deepcopy`; proved by a bisimulation between originals and
  copies, which holds for shared parts and cycles too. The copy is a further step of the histories of C50.
* **C63 (streams).** The receiving program is part of the statement (`Props/Stream`): `Header.unpack` on the first eight bytes, then as many
  bytes as the length tells. Induction over the pieces and over the messages.
* **C64 (own class).** The classes are listed with constructor and format (`Props/OwnKind`); the fixed type number selects the class, C61
  gives the announced length, C54 the round trip.
* **C65 (link probe).** The constructors of the network packets (`Model/NetNew`); the programs that build and read a probe are part of the
  statement (`Props/Probe`), composed with C19/C20, C36, C39 and C06. `Ethernet.get_hash` takes the hash function as a parameter.
* **C66 (refusals).** A law `Refuse` of attributes (`Spec/Refuse`): on values with a meaning `pack` raises only `PackException` and `get_size`
  raises nothing; proved class by class and composed with the encoding theorems, so that `pack` equals a specified outcome.
* **C67 (reuse).** `unpack` is modelled a second time, as a state and exception program on the instance dictionary (`Model/Reuse`); whatever an
  attribute has become when its decoding raised is an arbitrary value.  Every such program only assigns attributes, and for a message it ends
  like the positional `unpack` of the rest of the model (`Into`), so after any history the values found by `pack` are those of a new object.
  For objects that change `__class__` the order of the keys matters: it is right if the object was constructed as that class
  (`C67_own_class_partial`) or is of the base class and fresh (`C67_base_object_partial`); counterexamples for the rest. `C67_failed_class`: the class an exception leaves.
  OXM TLVs, the v0x04 match and the network packets (`Props/ReuseNet`) define their own `unpack`: by execution of the program on any dictionary.
* **C68 (threads).** `pack()` is modelled a third time, as a program that reads and assigns attributes of the tree of the message, one at a time
  (`Model/Threads`; its simplifications are at the top of the file).  Threads interleave arbitrarily.  A rely-guarantee logic (`Lemmas/Threads`): the
  state is always the original tree with some of the allowed assignments made, a thread knows those it has made itself, and under `NoPad` each place
  is only ever assigned one value.  Proved class by class that whatever the others have assigned, the thread computes the sequential `pack` of the
  original; that the tree packs the same at every moment follows by running one more thread from there.  For one interrupted thread `NoPad` is not
  needed.  Counterexamples by concrete schedules for padded set-field actions and for the five classes that replace their body.
* **C69 (is_valid of messages).** Inversion of `pack`: a packet is only returned when `is_valid` was true, and the preparations of `PacketOut.pack` leave
  the port alone.  Partial: `is_valid` of all other classes is constant.
* **C70 (pack with an argument).** By cases on the class (`Model/Valid`); counterexample for the four classes that take the argument for a body, with
  what they do instead (`C70_body`).
* **C71 (shared objects).** The programs of C68 run on a list of messages; which objects are shared is given by pairs of places, and an assignment
  changes all places of the object (`Model/Sharing`).  The logic of C68 carries over because the assignments allowed in a value depend only on the value
  and the class attribute that packs it (`Place.at`), hence are the same at all places of an object (`world_closed`).  At most one value is assigned
  at each place, but for lengths of padded actions (`Once`).  `C71_threads_partial` therefore needs that no ActionSetField that has to be padded is in
  the messages of two threads (`PadsApart`, counterexample); other threads may have packed the messages before and been given up (`Rounds`).
  `C71_one_by_one`, for one thread, needs nothing of the kind.  The same object may be several times in one message: after an assignment a thread may
  only rely on what it knows about the objects around the place (`Kept`), and no object is inside itself (`Same.not_inside`).  Messages that replace
  their body are not covered.
* **C72 (proportion).** `Spec/Weight.lean` counts objects, characters and bytes. Law `Lin`: five for each byte of the window, class by class;
  `d` more at offset 0, where a length 0 gives a new object as it is; list elements after the first have no constant, hence the bound of a
  list. `C72_linear` is about `unpack`; `C72_structures` about each class, with a witness for the one exception.
* **C73 (histories).** `Spec/History.lean`: `Change` is an assignment or a rearrangement of a list, `History m v w` says that `w` has been changed and
  packed (by the programs of C68, perhaps given up) while `v` has only been changed.  `Lemmas/Slack.lean`: `Eqv a v w`, "after any further changes of
  both, `a` packs `v` and `w` alike", is transitive and kept by changes; law `Slack`: what `pack()` may assign in a value gives an `Eqv` value, class by
  class, with a relation that changes keep (`bisim`).  What a program assigns does not depend on what it read in the message.
  `C73_history_partial`, `C73_threads_partial` for the classes that keep their attributes.  `C73_returning`: every class of either version, also those that
  replace their body, if each `pack()` returns; law `Trace` (`Lemmas/Trace.lean`): the value after `pack()` is `Eqv` to the one before, class by class.
  `C73_replaced_counterexample`: a `pack()` that raised makes the next one raise.
* **C74 (forwarding).** Programs of a controller are written out in `Props/Forward.lean` over the modelled functions (`passOn`, `passOn6`, `answer`,
  `controller`), with the change as an arbitrary function. The theorems compose C36, C37, C38, C40 and `C65_carried`; `checksum_unique` (one checksum below
  0xffff) gives `C74_ipv4_unchanged_partial`. Counterexample: padding of short frames.
* **C75 (network packets and threads).** `Model/NetThreads.lean` gives `pack()` of the eight network classes as the reads and assignments it makes, in the
  logic of C68 (`Lemmas/Threads.lean`), where a thread may now also remember a value that it read and that another thread had assigned (VLAN reads
  `self.x if self.x is not None else 0` twice). `packNet` is the sequential model. `Life` (`Spec/NetHistory.lean`) is the history of a packet, as `History`
  is for messages (C73). For each class a relation between attribute lists is shown to be preserved by changes and by what `pack()` assigns
  (`Lemmas/NetThreads.lean`, `Law`). `Fit` asks that IPv4 packets have no options and that IPv4/IPv6 attributes have the documented types; `Whole` that
  tags have all or none of the three values. Counterexamples: `C75_tag_counterexample`, `C75_options_counterexample`, `C75_options_twice_counterexample`.
* **C76 (`get_size()` and structures of their own under threads).** `Model/ThreadsSize.lean` adds the steps of `get_size()` and of the structures that
  assign while packing, also those in bodies of multipart messages, for which C68 packs a body in one step. A thread that asks for the size ends
  knowing as little about the assignments as at its start; such a thread has assigned nothing (`rd_of_good`), so one packing thread and any number of
  these need not agree on anything, padding or not. `C76_messages_partial` and `C76_structures_partial` then follow the life of an object that is made,
  changed and used in any order. Missing: the messages that replace their body, and several packing threads while an action needs padding
  (`C68_padding_counterexample`).
* **C77 (`str()`).** `Model/Text.lean` gives the text of the basic types, including Python's rule for `bytes` (quotes and escapes); the text of the
  members of enumerations is a parameter, because it depends on the version of Python. `Spec/Names.lean` says what it means that texts name what was
  decoded. For the addresses this follows from the unpack and pack theorems of C03–C06; for numbers from `int(str(n)) = n` for all integers, by
  induction over the decimal digits; for data from a reader of escaped bytes that inverts the escapes.
* **C78 (assignments during `pack()`).** The steps of `pack()` are those of C68; the other threads are arbitrary programs of reads and assignments of
  which only the assignments are restricted (`Assigns`, `Swap` in `Spec/Assign.lean`). In the logic of C68 the places where others assign are those
  about which a packing thread learns nothing (`Ctx.W`); sizes do not depend on them, packed bytes do. The invariant (`Mix` in `Lemmas/Assign.lean`)
  allows every result that comes of one choice per attribute among the values it had in the states so far. Threads that measure assign nothing, and
  their result does not depend on the places of the others. The length in the header follows with C17. Missing: attributes inside the structures
  that `pack()` changes itself (matches, instructions, actions, buckets and elements of v0x04), and the five messages that replace their body.
* **C79 (decoding in several threads).** `Model/Decode.lean` has the steps of `unpack` on a memory with references: a new attribute is stored in the object
  first and decoded afterwards, by the reference the call has kept. The values it goes through meanwhile are arbitrary. Every call owns the values it
  has made (`Ok` in `Lemmas/Decode.lean`); the invariant says that the owners are apart, that owned values are what their owner knows, and that each
  reference in an object is old or of a call on this object. That the steps do what the methods of C67 do is a refinement (`Ref`), proved method by
  method. Only calls with an object of their own look into it again. Class attributes are constants here (C50). `Model/DecodeNet.lean` has
  the other classes with an `unpack` of their own, the structures that inherit it or are cut at their own length, and threads that assign attributes.
  For calls that only store, result and stored values do not depend on the object (`Both`). Missing: objects that change their class, decoded on their
  own. Threads that pack the same object meanwhile are in C80 (packing other objects: these do not change, `C79_others`, so C68 applies).
* **C80 (reading while another decodes).** `Model/Watch.lean` adds threads that read attributes, one lookup and one read each, to the memory of C79. The proof
  (`Lemmas/Watch.lean`) is an invariant: addresses the object holds are settled and nobody writes to them any more, the decoding thread writes to
  addresses only it has, the others (all decoders of C79 on other objects, all readers) write to what they have made. Proved for `PacketOut`, Ethernet and LLDP TLVs, with one
  decoding thread per object (`C80_complete_partial`). For the classes whose `unpack` only stores, with any number of threads that decode into the same object or
  assign its attributes (`Lemmas/WatchMany.lean`): every thread labels the addresses it has made with the names under which the object shows them, and a labelled value
  is always one of those `C80_passing_partial` allows. Missing, as the code violates it: attributes in passing for the inherited `unpack`
  (`C80_default_counterexample`) and reads of several attributes as one (`C80_torn_counterexample`).
  For all classes, with one decoding thread, the run is simulated by the call on its own (`Lemmas/WatchAlone.lean`): the addresses correspond by a relation
  that grows with every new value, the steps of every `unpack` do not depend on them (`Uniform`), and what a reader has found is still in the object, or was
  replaced and is written to no more; so every read can be moved to a moment at which the object shows the value, in the order of the reads
  (`C80_moments_partial`). Missing otherwise: several threads that decode into one object of a class that reads from it.
  Threads that call `pack` or `get_size` meanwhile (`Model/WatchPack.lean`, `C80_pack_partial`, `C80_size_partial`, `C80_pack_complete_partial`,
  `C80_pack_passing_partial`; messages, which ask for the size first: `C80_pack_message_partial`, `C80_message_passing_partial`; ARP, which is checked first: `C80_pack_arp_partial`) go step by step with a
  thread that only reads the same attributes (`Lemmas/WatchPack.lean`); after an exception the reading one is run to its
  end alone. With nobody decoding into the object the result is that of one thread, `packInstance`, `sizeInstance`, `genericPack` (`C80_pack_undisturbed`,
  `C80_size_undisturbed`, `C80_message_undisturbed`, `C80_arp_undisturbed`). Not modelled there: several threads that pack the same message and so assign its header (C68 has those),
  the own `pack` of VLAN, IPv4, IPv6, LLDP TLVs and of some messages.

## 5. Violations found in the code

Each is proved on the model with a concrete witness.

| Property | Violation |
| --- | --- |
| C03 | `is_broadcast()` compares the text as it was given: `FF:FF:FF:FF:FF:FF` is not the broadcast address |
| C08 | `VLAN()` packs to nothing but has size 4; `ActionHeader` and `ActionExperimenter` pad only in `get_size`; `Bucket.get_size` is its `length` attribute; lists of `GroupDescStats` and `MeterMod` are not counted; a plain list as multipart body has no size; a `Char` of another length |
| C15 | `lst[i] = x`, `+=` and other `list` methods are not checked |
| C17 | the same classes give a wrong length in the header |
| C22 | ten message types let `TypeError`, `KeyError`, `struct.error` or plain `Exception` escape from `unpack` |
| C23, C37 | `IPv4` with options: every `pack()` adds the options to `ihl` again, and the checksum leaves them out |
| C24 | other spellings of the zero MAC address toggle the wildcard bit; `None` clears it; a negative netmask changes other fields' bits |
| C28 | `get_field` ignores the OXM class; `PacketIn.in_port` raises `TypeError` without an `IN_PORT` field |
| C35, C36, C39 | out-of-range tag parts overlap; at non-zero offsets `Ethernet.unpack` looks for tags at the wrong place; TLV lengths are not checked against the buffer, and long values are encoded with a wrong length |
| C41, C42 | a `pack()` that raises leaves the body replaced by its bytes; `bytes` bodies of multipart messages raise `UnboundLocalError` |
| C43 | `-` with a `UBInt` on the right has its operands swapped; shifting by a `UBInt` is a `TypeError`; `==` and `!=` can both be true |
| C44 | a header type of value 0 is not carried over to the other version; repeated version strings are all replaced |
| C46 | header-only packets of classes with a body, zero lengths, unaligned experimenter bodies, inexact buckets, `MeterMod` bands |
| C47 | At offset 0 a structure of OpenFlow 1.3 that announces length 0 decodes to a new object with unset attributes; at any other offset the same bytes raise `UnpackException`. The size of a decoded `GroupDescStats` leaves its buckets out |
| C49 | `is_valid()` never returns `False` |
| C50 | `AggregateStatsRequest()` of v0x01 shares its default `Match` |
| C20 | the header of a v0x04 `QueueGetConfigRequest`/`Reply` has the number of another message, also after decoding; only the nine reserved ports can be decoded in them |
| C51, C52 | declared lengths beyond the fields are not skipped; all but the last queue, group or meter entry are swallowed; GROUP_DESC replies with a bucket or a second entry always raise an exception |
| C54 | `OxmExperimenterHeader` packs its class in four bytes, `00 00 ff ff`, where the standard has two |
| C55 | no queue with a rate or experimenter property can be packed, and a received one is rejected or misread |
| C56 | `ErrorExperimenterMsg` cannot be decoded, neither by `unpack` nor by its own method |
| C57 | `names` of a bit mask is always empty; an unknown member is a `KeyError`, not an `AttributeError` |
| C58 | an unknown type name is a `KeyError`; a type number inside a `UBInt8` is refused |
| C59 | `int()` of a decoded field with flags is a `TypeError` |
| C61 | `ActionPopMPLS(...)` sets no length and can never be packed; `InstructionGotoTable()` has a default that does not fit |
| C62 | `GenericType.__deepcopy__` and those of its subclasses do not copy the value: an object held by a `BinaryData` is shared by its copy |
| C66 | `get_size` of a v0x04 `Match` raises `ValueError`, and so does `FlowMod(match=5).pack()` |
| C66 | `pack` of a v0x01 `ErrorMsg` whose `data` is a text or a number raises `AttributeError` |
| C67 | an action, instruction or meter band decoded as one class and then as another keeps the order of the first: `DEC_NW_TTL` then `SET_NW_TTL` cannot be packed |
| C67 | a v0x01 action of unknown type keeps the class the object had |
| C67 | `unpack` of a list appends to what the list holds; `IPAddress.unpack` keeps the old netmask |
| C67 | an exception leaves a message half decoded, and an instruction, band or property of another class; `StatsRequest.unpack` ignores its `offset` |
| C68 | `ActionSetField._update_length` stores the length without padding first: another thread packing the same message then returns a truncated packet |
| C68 | `StatsRequest`, `StatsReply` and the multipart messages put the packed body in place of the body while packing: two threads at once, or one interrupted, leave it there; the second thread may raise `UnboundLocalError` (multipart) or `AttributeError` (v0x01 `ErrorMsg`) |
| C69 | `is_valid()` is `True` for messages that cannot be packed, and a `TypeError` for a `PacketOut` without an input port |
| C70 | `pack(x)` of `StatsRequest`, `StatsReply`, `MultipartRequest` and `MultipartReply` puts the message `x` into the packet as a body |
| C71 | the same for an `ActionSetField` that two messages have in common: packing one of them in one thread may truncate the packet of the other in another thread |
| C74 | `IPv4.unpack` (and `IPv6.unpack`) ignores `length`: the padding of a short Ethernet frame becomes data, and `pack()` announces it as part of the packet |
| C75 | `VLAN.pack` stores 0 for a missing `pcp`, `cfi` or `vid`: a tag that had one value, was packed and is then emptied is sent as four bytes, not none |
| C75 | Two threads that pack an IPv4 packet with options both add to `ihl`: one can send a header length that disagrees with the total length |
| C73 | a multipart request whose `pack()` raised (flags that do not fit) cannot be packed after the flags are corrected: the packed body is still in place of the body and `pack()` raises UnboundLocalError |
| C77 | `str()` of a v0x01 `Header` that was decoded on its own raises `AttributeError`; `str(DPID())` raises `TypeError`; `str()` of an `IPAddress` loses the prefix length |
| C78 | `pack()` reads sizes, validity and values at different moments and takes no lock: a message changed by another thread in two places, in size, or to an invalid `in_port` may be sent half changed, with a wrong length, or invalid; an IPv4 packet with a wrong checksum |
| C79 | two threads that decode into the same object may leave a mixture of both packets; `ErrorMsg.unpack` may then refuse a valid packet (`ValueError`), because it reads type and code from the object again |
| C80 | a thread that reads an attribute while another decodes into the object may get a copy of the class attribute, without a value (inherited `unpack`), or attributes of different packets; a thread that packs the object meanwhile may get a PackException, bytes of neither packet, a message whose header has another length than its bytes, or an ARP packet its check rejects |
| C01, C02 | `UBInt128` has the format of eight 16-bit numbers: it packs nothing and decodes only the first two bytes |
