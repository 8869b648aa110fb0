# Formal model of uecho-py: design

`properties.jsonl` lists the properties (C01, C02, …), `MANIFEST.json` the theorems proved for each,
`AXIOMS.md` what every theorem depends on, `seeded/LOG.jsonl` the wrong programs the theorems were
tried against: those of `seeded/mutations.py`, written by hand and run by `tools/mutate.py`, and those
`tools/automutate.py` makes up. The Lean project is in `lean/`.

## 1. Shape of the model

A shallow Lean 4 model of `/repo/uecho`, function by function, branch by branch:

* Python integers are `Int`, byte strings `List UInt8`, dictionaries association lists in insertion
  order (`Model/Py.lean`).
* Exceptions are values (`Except Exc α`). Where Python changes an object and then raises, the model
  returns the changed state *and* the exception, because the change can be observed.
* Mutation is state passing. Code supplied by users of the library (request handlers, observers,
  listeners) and the outside world (`sendto`, `bind`, threads starting, `netifaces`, host name lookup,
  random numbers, the iteration order of `set`) are parameters of which nothing is assumed beyond what a
  theorem says.
* Where threads matter there are separate models with one step per access to shared data, run by
  arbitrary schedules: `Model/Post.lean` (`post_message`, receivers, TIDs), `Model/Threads.lean`
  (several receivers handling requests for one object), `Model/Running.lean` (the receiving threads of a
  started node and what arrives at them).

| Lean module (`lean/Verif/…`) | Python source |
|---|---|
| `Model/Py` | Python values: exceptions, `dict`, slices, `&`, `\|`, `<<`, `>>` on unbounded ints |
| `Model/Bytes` | `util/bytes.py`, `util/hex.py`, `bytes.fromhex`, `bytes.hex().upper()` |
| `Model/Esv` | `protocol/esv.py` |
| `Model/Message` | `protocol/message.py`, `protocol/property.py`, `message.py` |
| `Model/Messages` | `messages.py` |
| `Model/Property` | `property.py` |
| `Model/Object` | `object.py`, `protocol/subject.py`, the handler methods of `super_object.py` |
| `Model/SuperObject` | `super_object.py` (property maps) |
| `Model/StdRaw`, `Model/StdData` (generated) | `std/reader.py`, `std/objects_*.py`, `std/manufacturers.py` |
| `Model/Database` | `std/objects.py`, `std/database.py`, `std/object.py`, `device.py`, `profile.py` |
| `Model/Node` | `node.py`, `node_profile.py`, `remote_node.py` |
| `Model/Frame` | `frame/*.py` |
| `Model/LocalNode` | `local_node.py`, `option.py`; changes the program makes to objects it added (`object.py:222-298`) |
| `Model/Controller` | `controller.py`, one thread |
| `Model/Post` | `controller.py:185-205, 298-303`, `frame/manager.py:35-39, 72-79`, any number of threads |
| `Model/Threads` | `object.py:330-436` with the default handler, any number of threads |
| `Model/Crowd` | `frame/server.py:53-72` with `local_node.py:81-104`, any number of threads; the objects as in `Model/Threads` |
| `Model/Linked` | `object.py:269-328, 438-445`, `property.py:102-128, 175` (methods that follow back references) |
| `Model/Observers` | `local_node.py:46-47` |
| `Model/Iterate` | `controller.py:98-107, 134-153`, loops over the found nodes while other threads store nodes |
| `Model/Listeners` | `controller.py:109-123, 223-237`, the loop over listeners that add and remove listeners |
| `Model/Shared` | `std/database.py:53-63`, `std/objects.py:27-31`, `super_object.py:37-44`, `controller.py:131-132`: the one database all objects are copied from |
| `Model/Light` | `examples/device/monolight/monolight.py:30-63` without the screen, and the handler of `doc/device_overview.md:63-75` |
| `Model/NamesRaw`, `Model/StdNames` (generated), `Model/Names` | the attributes `name`, `typ`, `size` of objects and properties, kept apart from `Obj` and `OProp`: `std/reader.py`, `std/objects_*.py`, `std/object.py`, `profile.py`, `super_object.py:37-44`, `object.py:438-445` |
| `Model/Tools` | `bin/uechopost.py:34-62`, `bin/uechosearch.py:53-57`, with `literal_eval` as a parameter |
| `Model/Verbose` | `bin/uechosearch.py:58-97` (`-v`), `bin/uechobench.py:51-82`, as programs over prints, sends and posts |
| `Model/Closing` | `frame/unicast_server.py:37-60`, `frame/server.py:53-72, 100-110`, as interleaved threads on one socket |
| `Model/Adding` | `local_node.py:41-44`, `node.py:52-64`, `node_profile.py:96-141`, as interleaved threads on one node |
| `Model/Finding` | `controller.py:239-303`, `143-153`, as receiving threads of one controller at the same time |
| `Model/Aliasing` | properties shared between objects: `object.py:218-252`, `330-436`, `super_object.py:31-109` | default handler, no observers |
| `Model/Mapping` | threads in `SuperObject.add_property`: `super_object.py:31-35`, `77-97`, `object.py:222-227` | a map is looked up and written in one step |
| `Model/Calling` | request handlers that call the node they belong to: the loops of `message_received` over the node instead of over the object: `object.py:330-436`, `local_node.py:81-104` | |
| `Model/Hearing` | listeners that call the controller they listen to: `message_received` of the controller with listeners that take the controller |
| `Model/Watching` | observers of objects that call the node: `Subject.notify` and `message_received` of a node with observers that take the node |
| `Model/Pool` | several local nodes and objects by reference: `LocalNode.add_object`, `Node.add_object`, `LocalNode.message_received` (`local_node.py:41-44, 81-104`, `node.py:52-83`), and the program's references to the objects |
| `Model/Lifetime` | references and `__del__` (`local_node.py:38-39`, `frame/manager.py:32-33`, `frame/server.py:40-41`, `controller.py:93-95`), on the nodes of `Model/Pool` |
| `Model/Running` | `frame/server.py:48-72`, all receiving threads of a node |

`Spec/*` holds the definitions the statements use (wire format, map semantics, what a history is, what
may be observed): they do not refer to helper functions of the model. `Lemmas/*` holds the work,
`Props/*` the property theorems with, beside each, an `example` meeting its hypotheses.

`Check/Suite` holds the tests of the project, run on the model.

Naming: `Cnn_…` proves (part of) property Cnn; `…_false` proves the negation of a property, with a
witness or for every reachable state; `…_partial` is what holds of a property that is false or not
completely covered, and its comment says what is missing.

## 2. How each property is proved

*Bytes and messages*
* C01, C02: `from_int` (a loop storing into a buffer) is the base-256 digit function, `to_int` Horner evaluation; induction on size and list.
* C03–C05, C07: the offset-based parser is related to a list-consuming one by induction on the property count; round trip, soundness, completeness, and that no proper prefix parses, follow.
* C06, C08: false of the code (IndexError escapes; a reused message keeps stale lists). Negation with a witness, and an exact characterisation of all outcomes.
* C09–C11: induction on characters, bytes, or calls; case analysis of Python values. C12: case analysis over all integers.

*Objects*
* C13, C14: induction on the request's items for an arbitrary handler, which may change the object and raise.
* C15–C19: induction on the items against a fold that says what a request should do. C17, C19, C20, C21 are false: negation and characterisation.
* C22–C24, C31: invariants and refinement of a map by induction over arbitrary histories of calls and messages.
* C25, C32–C35: case analysis and bit-field arithmetic on unbounded integers; C33, C34, C35 are false in part.
* C26–C30, C40: bitmap arithmetic over all byte strings and all sets of codes, with the iteration order of sets universally quantified; C28, C29, C40 are false: exact result instead.
* C36–C39, C41: the tables are generated into Lean from the source text by `tools/gen_std.py`; facts about the whole tables by kernel evaluation (`decide +kernel` over all entries), lifted to all codes by lemmas.
* C100–C103: invariants of an object with a given handler, kept by every message (`Kept` in `Lemmas/Light`), over all histories.
* C58: induction over registrations. C97: induction over writes to the shared database, then the construction lemmas of C39.

*Nodes and transport*
* C42–C44, C48–C50, C75: invariants over all histories of a local node (adding objects, changes by the device's own program to objects it added (`LocalNode.update`), options, start, stop, received messages with arbitrary handlers).
* C45–C47: composition of the instance list invariant with codec and parser.
* C51, C53, C54, C57, C71–C74, C76: induction over server lists and calls with an operating system that answers anything.
* C93: induction over additions, with C56.
* C55, C56, C69: the receive loop as a fold over arbitrary datagrams.

*Controller*
* C59–C63, C77–C84: invariants over all histories of a controller; per-message characterisations.
* C67: computation. C68, C87: composition of both ends: what the controller sends is parsed by the device, handled, answered, parsed and taken as response. C88: the same for a search, by induction over the answers in the order they arrive.
* C89, C90: reduction to C54, C68, C74. C91, C92: every object of a found node is, but for data, the standard device of its code, by induction over histories.
* C98: what is stored as response, by induction over messages received, for listeners that may raise. C99: reduction to C59.
* C104–C108: the command line tools: induction over arguments, characters and printed pieces; reduction to C54, C59, C68, C88.
* C109: induction over the sequence of requests, each step being a refinement of a step of the store (`Lemmas/Exchange` for one exchange, `Lemmas/Session` for the store); sessions are shown to be deterministic, so that the responses can be no others.
* C110: invariant of sending and receiving in any order: the automatic TIDs are consecutive modulo 65535, and what waits is the message posted last.
* C111: the TID a message gets is a function of the TID it has; then as C98.
* C112: lookup in a dictionary filled line by line is the last line (`Lemmas/Names`); the two generated tables are compared as a whole by the kernel.
* C113: the lemmas for new devices (C39), for an object that has properties already.
* C114: a program is a sequence of prints, sends and posts (`Model/Verbose`); a run of it lets each post be delivered and answered. Every step prints the lines of the text computed from the store of C109 and leaves the machines able to answer; induction over properties, objects and nodes.
* C115: an object is determined by its skeleton and the last accepted write of each property (C14's refinement), so writing the same list twice is writing it once; the answers depend on the skeleton only. For nodes by dispatch (C48), for controllers by the case analysis of the received message. `C115_late_false`: a delayed duplicate of an old write.
* C116: by C48 a message changes the addressed object only and that as the object alone would; induction over the sequence with the node reachable throughout.
* C117: `Spec/Storm` has a network of machines (nodes and controllers) and packets on their way, delivered one at a time in any order, each datagram sent becoming up to K packets. Proved by a weight (1 for an answer, 1 + K·B for a request) that every delivery lowers; what a machine sends on receiving is read off the send log, for arbitrary states of the machine.
* C118: `Spec/Several` has a store shared by all devices and the deeds that change it; a course runs the deeds on the models of controllers and nodes. Each deed is shown to act on the machines as on the store (C109 for requests, `LocalNode.update` for assignments, C92 for reports); induction over the course.
* C119: the documented handler (`Model/Light`) run in the loop over the properties of a read request.
* C120: codes neither writable in the table nor rewritten by the node keep their properties through every operation; the values are those of a fresh node.
* C121: instance code 0 is a key like any other (C42, C48); C116 for the requests one by one.
* C122: the send log over all histories: operations other than receiving do not send; an answer that is a notification has no properties (`Object.message_received` counts none for 0x63).
* C123: `Model/Closing`, small steps of the threads that use a server's socket; an invariant of all interleavings.
* C124: `Model/Adding`, small steps of the threads in `add_object`; an invariant of all interleavings; `writes_model` ties what is written to the model of one thread.
* C125: no new model; induction over the datagrams with the per-message lemmas of C23 and C40, for an arbitrary invariant.
* C126: no new model; induction over the starts and stops, equality of whole node states.
* C127: no new model; C67, C88 and C59 composed for a controller that is its own peer.
* C128: `Model/Finding`, small steps of the receiving threads in `message_received`; an invariant of all interleavings; a measure for termination; `message_alone` ties one thread to `Model/Controller`.
* C129: `NodeProfile.newReadOnly` computed with the lemmas on construction (C39, C43); the invariant theorem of C125 with "nothing changes"; C15 and C17 for the policy that accepts no write.
* C130: `Model/Aliasing`, objects and properties with identities; a simulation of `Model/Object` for every function, a frame for the rest of the heap, induction over programs. Also the justification of `Model/Object`, where an object owns its properties.
* C131: `Spec/Air` has the machines with all datagrams ever sent, and the mail it should look like: the shared store of C118 and letters numbered by sender. A simulation (the TIDs of letters are those numbers modulo 65535) between the two, for every event; freshness is an invariant of the mail.
* C132: C01 and the store of C31 on the device, the shared store of C118 over the network.
* C133: the handled message comes from a datagram, so each item has at most 255 bytes; invariants of the objects under bombardment (C125) and of the table of nodes along every
  history (C59, C92); the number of listed instances is bounded by the length of the list.
* C134: a handler with arbitrary notes (`Spec/Asked`) run through the three loops by induction; the notes are the fold over the questions, and some way of taking notes is
  a transcript (`C134_transcript`), so the questions, their order and their number are determined.
* C135: interleavings of any number of threads in `add_property` (`Model/Mapping`). Invariant: what a thread has gathered of the part of the dictionary it has passed was to be
  listed at some moment, the rest was not; the maps show such lists. A call that is not interrupted is the function of `Model/SuperObject` (`add_alone`), so C27 applies.
* C136, C137: `Spec/Sending` says of each call what it may make the machine send. Proved by induction over histories on the send log; no invariant of objects or found nodes is
  needed, only the range of the TID counter, so handlers, listeners and peers are arbitrary.
* C138: `Model/Calling` is the request loop again with a handler that takes the whole node. The handler's calls are arbitrary node operations; a simulation relates each loop to the
  loop of `Model/Object` through "some calls have been made, and the object asked is …".
* C139, C140: `Model/Hearing` is the receiving side of the controller again with listeners that take the controller. A listener's calls are arbitrary controller operations that do not touch
  the nodes found; they are shown to commute with the rest of the handling. For C140 a controller and a host exchange all they have to say, round after round, by induction over the rounds.
* C141: `Model/Watching`: `message_received` of the node with observers that take the node; the calls commute with telling the other observers since they leave the list of observers alone.
* C142: noninterference: a relation between two nodes (`censorNode` equal) kept by every operation, through the three loops over the properties of a request; a handler's own answers must depend only on what may be read.
* C143: what a request does to an object is shown to be a function of the destination, service and properties; the other operations of a node are shown to leave all objects alone, so that they can be dropped from a history.
* C144: the answer mirrors the items of the request (C14) and a property fits 257 bytes; the counterexample composes C120 (what a node says of itself), the sending of answers and C55.
* C145: `Model/Pool`: nodes and objects with identity, tables of references; as long as every object is in one place the view of a node (references followed) commutes with every operation of the model that has objects as values.
* C146: `Model/Lifetime`: references between nodes, objects, servers and things of the program; what the program or a running thread reaches is kept. Invariants over all sequences of events, in which a `__del__` is possible only for what is not reached.
* C147: two reference machines from datagrams to datagrams, written in `Spec/Device` without the model's functions: what the standard prescribes and what is there. Soundness and completeness of the decoder against `Spec.encode`; then refinement: every step of the model is a step of the second machine, by induction over all arrivals; the two machines agree outside an explicit list.
* C148: the same for controllers: two reference machines from datagrams to the picture of the network, what listeners are told, the answer waited for, what is sent and which threads survive (`Spec/Picture`, written without the model's functions; requests go to the device machine of C147). Refinement of the second by the model for all arrivals; the two agree outside an explicit list, up to the confusion of node additions and updates.
* C149: a network is a map from addresses to machines with arbitrary histories (`Spec/Truth`); a message is genuine if the machine at its address has sent it at some time. Invariant by induction over the histories of devices and controllers: every datagram in the log of a machine that says which objects it has, names objects it has (and objects are never removed). With C59 (what a controller knows is the latest list heard) this gives the property for sincere programs. The negation by composition of C68 (end-to-end read) with C59.
* C150, C151: the reference machines of C147 and C148 are extended by the calls a program makes, and networks of them are formed (`Spec/Whole`); both networks, that of the model and that of the machines, are instances of one `Home`, so that what happens in them is the same list of incidents. One step of a node or controller commutes with the abstraction (`node_use`, `ctl_use`), then one of the network (`home_step`), then induction. C151 is a second simulation, between the machines that are there and those of the standard, for incidents not in the list of differences. Programs do not add objects or properties and do not start or stop nodes during the run; they may have done so before. Devices and controllers may share an address, incidents say which is meant.
* C152, C153: one invariant rule for closed networks of reference machines (`Keeps`, `keeps_run`): a condition on messages by destination, one on devices and one on controllers, which the machines and what programs do have to respect. It is used with "does not write this property" and with "all data in S", and carried to the model by C150. `read_written` says that all one can read in a datagram, cut off at 1024 bytes or not, is the message that was written.
* C154: an invariant of closed networks of reference machines (`AllWell`): every datagram sent is a search to everyone, a short request to an address from a node alone there or from a controller that knows the receiver, or an answer to one, and every profile holds an instance list it lets nobody write. Each arrival of such a datagram leaves threads alive and yields such a datagram (`well_run`); carried to the model by C150.
* C155, C156: an invariant of closed networks of reference machines (`AllTrue`) relative to a record of what was held when: every datagram that tells values tells recorded ones, and so do the picture, the listeners and the answer of every controller. The record is that of the run itself (`true_run`), from the request on for C155, from the start for C156; carried to the model by C150. `supposes_run` needs no closed network: whatever arrives, controllers learn values of node profiles only.
* C157, C158: a run is lossless (`Home.Lossless`) if each datagram that a call or an arrival in it sends arrives later at each node it is for; nothing is said about order, repetition or delay. Proved by taking the run apart at the request, its arrival and the arrival of the answer, with the invariant of C154 (`AllWell`) in between, so that nothing else ends a thread, and invariants for what is asked (`Awaits`) and for what instance lists say (`ListsTrue`). Proved on reference machines, carried to the model by C150.
* C159: what doing a request means (`Did`) says only which properties then have which values. Proved by an invariant of closed networks (`AllDone`): each confirmation under way, or taken, is backed by an entry in a record of requests that were carried to the node that confirms and were done when they arrived (`done_run`). Proved on reference machines, carried to the model by C150.
* C160: the moment of C159 at which the value was held, an invariant from then on (`KeptD`: all that is under way agrees about the property, and the device holds it), and C155 for the answer. C155 had to be stated for networks somewhere in their history (`fresh_fit`). False in general: a witness of thirteen steps, one of them a datagram that arrives twice.
* C161, C162: as C159, but what is put on record is the step itself: the object before, after, and what it said (`OneStep`). The two claims are then claims about one object and one request (`thing_snapshot`, `thing_refuses`), and none of their hypotheses is about what others do.
* C163: the step of C161 lies between the request and the answer, because what was sent stays sent (`take_carried`): a request not yet sent when the first answer arrived is not under way before.
* C159, C161-C163 are proved for nodes that handle one message at a time, and in C167 for devices whose threads overlap if each datagram names at most one property that may change; the witnesses that they fail if threads overlap are schedules of the thread model (`Props/Atomic`).

*Threads*
* C52, C64–C66, C85, C86: inductive invariants of the interleaving model over all schedules; failures by explicit schedules.
* C70: an inductive invariant relating every thread's local variables to the log of stores; an uninterrupted thread does what the sequential model does.
* C164: an inductive invariant with a second, made-up log: each thread's message either has not had its effect in it, or has, and then the thread has nothing left to do but answer (`Waiting`, `Settled`). The moment of effect is the load, store or check of the property that may change, or, if there is none, the end. What is loaded of the other properties is the same whenever it is loaded (`dead_step`); the rest of the work, done at once at the moment of effect, gives the answer that is given later (`handle_finish`, `dead_finish`). That the effect is that of the whole message on the object of that moment is C147's lemma about single objects.
* C165: from C70: each value read back is one of a moment while the message was handled, and at all these moments it is the same.
* C166: an inductive invariant on the whole node: the made-up logs of all objects (C164) and one of the node, in which each thread is as far as in the log of the object it is in (`Linked`). A step of the node is one step of an object (`objs_step`) or none. What an effect on an object means for the device is `device_effect`, what is sent is `answer_exact` of C147. That its conditions cannot be dropped is shown by two executions of which no story can be told: all places where effects could be are tried, by a search that is proved to find a story if there is one (`mayTell_of`).
* C167: a simulation of networks: to each device belongs a node that handles datagrams as a whole (C166), and it is kept that it goes along, move by move, with a network of the kind of C150-C163 (`BusySim`). What a busy device has under way it has in the other network already sent; a moment in the other network is a moment in this one (`C167_step`), so C161, C162, C159 and C163 carry over.
* C168: a variant: the number of steps a thread has to go at most (`stLeft`) gets smaller with each of its own steps and is not changed by those of others; an invariant says that a thread is in no object but the one of its request (`Placed`).
* C169-C173: from the story C166 gives: what is seen of a thread cuts it at the moment of effect (`got_done`, `did_done`), and the device at that moment has grown out of the first by what the story says before (`Grown`, `inTurn_grown`). C168 gives the time.
* C94: an inductive invariant (the posting thread is the only one that could store its response). C95: inductive invariants of a loop interleaved with stores. C96: the same for the loop over listeners, a listener's changes being one step.

No listed property is left without a theorem.

## 3. Trusted base

* Lean's kernel (4.33.0), and the Mathlib modules imported.
* Axioms: every property theorem depends on at most `propext`, `Classical.choice`, `Quot.sound`; the list
  is in `AXIOMS.md`, made by `tools/axioms.py` from `#print axioms`. There are no axioms of our own, no
  `sorry`, no `native_decide`, no `bv_decide`.
* The reading of the Python source recorded in the comments of `Model/*` (every definition cites its lines).
  Evidence that it is right, beyond reading: `Check/Suite` replays the tests of the project (`test/`) on the model, assertion by assertion, those that need a network on one that works
  (`test_device` runs a controller against itself: start, search, found node, reads, writes, stop). All of them hold of the model. These are tests of the model, not proofs of properties.
* `tools/gen_std.py`, which copies the tables of `std/` into Lean. It refuses lines it does not understand.
* What we took from the Python language: semantics of `dict`, slices, integer bit operations,
  `bytes.fromhex`, `bytearray.append`, `list.remove`, exceptions; that one bytecode is atomic.

### Not modelled

* Sockets beyond "`sendto` returns a number or raises", "`bind` works or raises", "`recvfrom` returns at most 1024 bytes of a datagram"; delivery is a hypothesis where a theorem needs it (C45, C68, C87–C89).
* Real time: a wait may time out at any moment.
* Log output and formatting of log lines, except that `to_string` is evaluated and may raise.
* `anno_status` of properties (nothing uses it).
* `__del__` and garbage collection outside `Model/Lifetime` (everywhere else nothing is collected); what happens in the interpreter after the last thread has ended.
* Values outside the types the API documents, except where a model type lists them (`PropArg`, `PyCode`, `PyAddr`, `PyDest`, `ManArg`, `AttrArg`); in particular bytes-like data is always a byte string, `bool` is not distinguished from `int`.
* User references: objects are values; that a user keeps a reference to an object or property and changes it behind the library's back is covered only where a model has an operation for it (`set_property_data` between messages in the histories, `app` in `Model/Threads`, objects of the database in `Model/Shared`, objects and nodes of a program in `Model/Pool`). C145 shows that for objects that are added once nothing is lost by that.
* Of user code calling back into the library: request handlers may call their node (C138), observers of objects too (C141; not to replace the object or change its observers), listeners their controller (C139; `post_message` C94, `add_listener` and `remove_listener` C96). Delivering a message (`message_received`) from a callback is not modelled.
* `Manager.notify` (nothing calls it), `SuperObjectReadOnly` (unused; only sets a code), option parsing of the tools, the time uechobench measures; of `examples/device` everything but the light itself.

### Simplifications

* The three attributes of a property are three fields instead of a list of length three (nothing changes its length).
* The dictionary and code of an object are not replaced by a handler during a request for the property it is asked about (`Obj.setLoop`).
* In the sequential controller `post_message` is split into sending and taking the response; the waiting is in `Model/Post`.
* `Model/Post` begins for a receiver at line 298; `Model/Threads` and `Model/Crowd` leave out observers; in `Model/Crowd` reading a datagram up to the object it is for is one step, and sending an answer is one.
* Closing a socket ends its thread (needed for `join` in `stop`).
* A node handles one datagram or call at a time, except in the models of threads (`Model/Post`, `Threads`, `Closing`, `Adding`, `Mapping`, `Finding`, `Iterate` and what is proved of them: C52, C64-C66, C70, C86, C94, C95, C123, C124, C128, C135, C164-C173). In the library each address has a receiving thread of its own, and there are no locks. So all that is said about networks (C109, C117, C131, C147-C163) is about nodes whose threads do not overlap. For requests with at most one property that may change this is no restriction (C164, C166 for whole devices and datagrams, and C167 for networks of them, except that in C167 the threads of controllers do not overlap); for others it is: the claims that are false because of it have witnesses (`C159_torn_false`, `C161_torn_false`, `C162_torn_false`, `C163_torn_false`) and are marked partial.

## 4. Faults of the code found on the way

Each is a theorem (`…_false`), most of them for every reachable state.

* Datagrams: a truncated message raises `IndexError` instead of `ParserError` (C06); any exception, so one byte from anyone, ends a receiving thread for good (C55, C69); a well-formed 0x6E reading an unknown property does too (C19, C69); a message over 1024 bytes too (C55).
* A reused `Message` keeps the lists of the previous parse (C08).
* A rejected 0x61 is answered 0x50 instead of 0x51 (C17); 0x63 is never answered with values (C20); 0x74 is acknowledged only if empty (C21).
* Property maps with more than 15 entries lose everything above 0xBF and have the wrong count (C28, C40); maps of conforming peers are read wrongly (C29).
* `set_code(obj)` returns False, lookups by object fail (C33); `group_code`, `class_code`, `instance_code` setters or the new value into the old (C34); `required_c`/`required_o` are dropped (C41).
* Instance count wraps at 256 (C43), nodes with 85 devices cannot answer a search (C46), class counts are wrong (C44).
* `IGNORE_SELF_MESSAGE` does nothing (C49); TID 0 is answered with another TID (C75); `start(ifaddrs)` ignores its argument (C76).
* `start` leaves servers behind when it fails (C71); `stop` in a callback raises (C72); `announce_message` is always True (C73); one failing interface keeps a message from the others (C74); observers added before `start` are lost (C93).
* Controller: property reports go to the node profile copy (C61); `node_updated` is never called (C60); messages from unknown nodes raise (C62); devices hosted by a controller answer as the node profile (C63); unresolvable names raise (C78); rediscovery forgets (C81); anyone's list is believed (C82); properties outside the tables stay unknown (C92); anyone may answer a posted request (C98); 0x74 announcements are not taken in (C99); a listener removing itself hides the event from the next (C96).
* What is written to an object from `get_standard_object` shows up in all later devices; adding one to a node makes every later `Device` of its class raise (C97).
* `send_message` of an object raises unless its node was found by a controller (C90); `copy()` of an object of a found node raises (C91).
* Threads: duplicate and out-of-range TIDs (C52); responses to others are returned (C64); receivers crash (C66); a late notification is lost (C86); requests are not atomic (C70); `post_message` from a callback waits for its own thread (C94); `nodes` and `get_node` may raise while nodes are found (C95).
* Sample light: a write of several bytes makes it refuse every later command (C101), a write of none ends its receiving thread (C103). A device written as documented refuses every write (C102).
* uechopost: cuts long object codes and drops the properties of 0x6E (C104), raises on numbers with an odd number of digits (C105), prints no property of a 0x7E (C106).
* TIDs repeat after 65535 messages, so that a response that is so late is taken for the current one (C110).
* A message object that is posted again keeps its TID, so that a late response to the first request is returned for the second (C111).
* An object of a class outside the tables is named "Super class"; a property made by a user has no attribute `name` (C112).
* `set_code` of an object that has a code keeps the properties of the old class (C113).
* A device written as the documentation shows refuses to tell its property maps (C119).
* A node answers a read of its manufacturer code with no data, and nothing but its own program can set one (C120).
* A request for all instances of a class (instance code 0) is dropped (C121).
* A node announces neither its instance list nor changed properties (C122).
* `send_message` and `stop` race with `stop`: they can raise `AttributeError` or `OSError` (C123).
* `add_object` in two threads can leave an object out of the instance list, or raise `RuntimeError` (C124).
* A controller finds itself: its own search comes back to it, is answered, and the answer is taken as that of another node (C127).
* Two nodes that announce themselves at the same time can end a receiving thread of the controller with `RuntimeError` (C128).
* `NodeProfileReadOnly()` has no data: setting its code replaces the properties that had been filled in (C129).
* A `Property` added to two objects is one: a write to one object is a write to the other, and its `object` is the second (C130).
* A request that the network delivers twice is obeyed twice, whatever was written between: devices do not remember TIDs (C131); so an old write undoes a newer one that was confirmed (C160).
* A delayed duplicate of a write request is obeyed again after a newer write; no TID is remembered (C115).
* The handler of an object is called with `None` for each unknown property in the second part of a write-and-read request (C134).
* Properties added by two threads at once may be missing from the maps, and `add_property` may raise (C135).
* Answers go to the port a request came from, not to 3610, and messages longer than the library's own receive buffer are sent (C137).
* A handler that announces the property being written announces its old value (C138).
* A listener that searches again when it is told of a node never stops: searches multiply (C140).
* A request handler that permits a read overrides the access rule of the property: the data of a property marked unreadable is then sent (C142).
* A request naming a property often gets an answer that is too long to be received, which ends the receiving thread of the asker (C144).
* An object added to two nodes is one object: what the one node is told changes the other; an object added again after a change of its code stays under the old code (C145).
* A node that was started is never collected, as its own threads refer to it; `__del__` never stops it, and the threads keep the process from ending (C146).
* Reading property 0xD5 or 0xD6 of an ordinary object replaces the controller's list of that node's objects by whatever the value spells (C149).
* A device that announces a property ends a receiving thread of each controller that has not found it yet (`None.get_object` in `Controller._update_properties`, controller.py:258), and a controller that asks a node it has not found ends its own when the answer comes (C154).
