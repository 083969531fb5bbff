# Formal model of gnablib-go — design

The model is Lean 4 (4.33.0). `properties.jsonl` is the list of properties; `MANIFEST.json` maps each to theorems.

## Layout (`lean/Verif/`)

| directory | contents |
|-----------|----------|
| `Go/`     | the fragment of Go semantics used: fixed-width integers (`BitVec`), panics (`Res`), byte memory and slices |
| `Model/`  | the code, function by function; every definition cites file and lines |
| `Spec/`   | small specifications written from the English claim / published standard, without reference to the model |
| `Lemmas/` | helper lemmas (free to change) |
| `Lang/`   | Go itself: lexer, parser, interpreter (big-step, with fuel), standard library functions, rules for proofs; `Words` and `Grammar`: what texts spell and which trees they have, as relations |
| `Source/` | the text of Go files, and the syntax trees the parser gives for them (generated by `tools/source.py` and `tools/source_tables.py`, checked by the kernel) |
| `Code/`   | what running each function of the text does |
| `Props/`  | the property theorems `Cnn_*` only, and beside each an `example` exhibiting a non-trivial instance of the hypotheses |

## Modelling conventions

* `byte/uint8, uint16, uint32, uint64` are `BitVec 8/16/32/64`: all wrap-around is modelled.
* `int` is `Nat`/`Int` (unbounded). Exception: where a property is about overflow it is modelled with wrap-around. Slices of more
  than 2^48 bytes do not exist on Go platforms, so `int` indices derived from lengths cannot overflow.
* Panics (index/slice out of range, negative `make`, explicit `panic`) are the value `Res.panic`.
* `error` returns are explicit values. `nil` slices are distinguished where the API does (ToBytesFast).
* Slices that are only read, or freshly allocated, are `List (BitVec 8)`. Where the code writes through a caller's slice and
  aliasing matters (`bytes` package) memory is modelled explicitly: `Mem = Nat → BitVec 8`, a slice is (base,len).
* Loops are structural/fuel recursion; a loop that may diverge (AddRange) is a step function iterated with fuel, and
  termination / non-termination are theorems.
* Objects (`hash.Hash`) are state machines; histories are lists of operations.
* Go standard library functions used (binary.ByteOrder, net.IP.To4, net.IPMask.Size, bytes.Compare, copy, append, bits.RotateLeft32,
  strings.Split) are modelled from their documented behaviour; these are part of the trusted base.

## Plan per property

| id | model | how proved |
|----|-------|-----------|
| C01-C06 | `Model/Hex`: FromBytes, ToBytes, ToBytesFast, both `decode`s as the index loops in the code | loop lemmas by induction on remaining characters; decoders by kernel `decide` over all 256 bytes (whole domain), lifted |
| C07-C09 | `Model/Codegen`: buffer-writing loops with bounds-checked writes into the pre-sized buffer | spec = rendering by sections + a reader for Go literals; induction; exact characterisation of when the code panics. Expected: C08/C09 false in general (buffer pre-sizing uses floor division) -> negation + `_partial` |
| C10-C15 | `Model/Net`: To4, Size, conversions | bit-level lemmas; C14 false for IPv6, C15 false for 16-byte forms -> `_partial` + witness |
| C16-C24 | `Model/IpTree`: tree, add, each, AddRange loop, public API | denotation of a tree as a set of addresses; invariant (no All/All siblings, depth<=32) by induction over histories; minimality via counting lower bound. C21 false at end=255.255.255.255 (proved non-termination); C23 false for masks >32 ones -> `_partial` + witness |
| C25-C33 | `Model/Bytes`: explicit memory | numeric value of byte ranges, loop invariants; C27,C28,C29,C30 expected partly false (BE over-long b, Add16/Add32 panic, padBE over-copy, short alias) -> exact statements + witnesses |
| C34-C45 | `Model/Checksum`: digests as state machines, loops with wrap-around arithmetic | loop invariants with no-overflow bounds; modular arithmetic. C37 false (negation each Write), C38 false (panic on >5803, overflow by one batch), C41 false for unaligned splits -> `_partial` + witnesses |
| C46-C48,C52,C53 | `Model/Ripemd`: ctx, Write, Sum, Reset, four compression functions | refinement to "message log" machine; spec from the RIPEMD-160 paper; interleaved loops = two independent lines |
| C49-C54 | `Model/Whirlpool` | same refinement; table lookup = algebraic round by linearity; tables by kernel `decide` over all entries |
| C55 | `Model/Endian` | case analysis |
| C56,C57,C59-C61 | `Model/TestHelpers`: Abbr, StringMatch(Title), findFirst/LastMismatch, renderText, HashTest, HashHexTest | list/index reasoning; exact report text for every splitting of strings into characters; C60/C61 for every hash object, then for all of this library's |
| C58 | `Model/IpTree` | exact effect of every argument that is not an IPv4 address |
| C62 | `Model/Hex`: error texts | case analysis over bytes, decimal notation by induction |
| C65,C66 | `Model/Net`: tree values, AddRange | a specification of one addition on the list of CIDRs with values (`Spec/Net`: `Grows`, `Greedy`); induction over the tree height; potential argument for the bound 62 |
| C67-C69 | `Model/Checksum` | arithmetic of the definitions in `Spec/Checksum`: differences of sums, of running totals and of Luhn totals; theorems in `Props/ChecksumErrors` |
| C70,C71 | `Model/Ripemd`, `Model/Whirlpool` | the refinement relation of C46/C49 holds for a forged object; inverses of the steps and exchanges; theorems in `Props/HashStructure` |
| C72 | `Model/NetCallback` | one addition with values that are unevaluated expressions, then evaluation in order; specification of the calls of the callback in `Spec/NetCallback` |
| C73,C74 | `Model/Net` | additions of disjoint CIDRs commute (induction over the height), lists of greedy blocks are unique; counting nodes; theorems in `Props/NetOrder` |
| C75 | `Model/Checksum` | differences of the two sums modulo 2^k-1; 2 is invertible and powers of 2 below k are distinct; theorems in `Props/FletcherErrors` |
| C76 | `Model/Hex` | induction over the bytes; theorems in `Props/HexOrder` |
| C77 | `Model/HashHeap`: several objects, memory, slices with capacity, `append` | every object simulates a lone one (C46, C49 and the others then apply); theorems in `Props/HashHeap` |
| C78 | `Model/Whirlpool`: `lookup`, `roundLoop` | GF(2^8) is a field; every minor of the circulant matrix up to size 4, and of its inverse up to size 3, is non-zero (kernel computation over all of them), which gives the branch number; counting over rows and diagonals; theorems in `Props/WhirlpoolDiffusion` |
| C79,C80 | `Model/Bytes` | the loop invariant of C25/C26 with the digits of b as they are read (result bytes below the current word); uniqueness by strong induction over the digits; specification in `Spec/BytesAlias`, theorems in `Props/BytesAlias` |
| C81,C82 | `Model/Bytes` | 256^k-1 is invertible modulo a power of 256; word lemmas of C25/C26 exposed; theorems in `Props/BytesDoc` |
| C83,C84 | `Model/NetHeap`: several trees, memory, `net.IPNet` variables | what each call does to trees, memory and variables, one relation for all calls; then induction over the program; C16 applies through C83_tree; theorems in `Props/NetHeap` |
| C85 | `Model/NetZero`: nil root, nil merge, nil pointers | simulation by the tree of `Model/NetCallback` with the nil callback; theorems in `Props/NetZero` |
| C86 | `Model/Recover`: calls with recovered panics; spec `Spec/Fletcher16` counts the wraps of the 32-bit sum | induction over batches, 2^32 = 1 modulo 255; theorems in `Props/Fletcher16` |
| C87,C88 | the text in `Source/`, run by `Lang/Eval` | evaluation of each function for symbolic arguments and memory, loops by induction, then the theorems about the model; theorems in `Props/SourceChecksum` |
| C89 | the text of package hex in `Source/`, run by `Lang/Eval` | the same, with the result of the model's loop as invariant; theorems in `Props/SourceHex` |
| C90 | the text of package codegen in `Source/`, with that of hex | the same, with the model's loop, including its panics, as invariant of `range`; theorems in `Props/SourceCodegen` |
| C91 | the text of package bytes in `Source/` | `Lang/Memory`: a layout gives every array of bytes in the program's memory addresses in one flat memory (`View`), so the run of each function can be compared with the model under every overlap; then the layout is removed again (`Keeps`, `NoOverlap`); theorems in `Props/SourceBytes` |
| C92 | the text of package net in `Source/` | nodes of the tree as values of the interpreter (`IsNode`), the callback as any function with the effect of the model's (`Callback`); `add` by induction on the bits left, `AddRange` by induction on the fuel in both directions, `each` by induction on the tree with the slice built so far as invariant; then sessions of a program (`Session`) and C16 to C21; theorems in `Props/SourceNet` |
| C93,C94 | the text of package ripemd in `Source/`, with that of bytes | long bodies are cut into segments that are run one by one (`takeS`, `dropS`, `execs_app`); the rounds by induction, the loop of `Write` with the model's loop as invariant; then C46; theorems in `Props/SourceRipemd` |
| C95,C96 | the text of package whirlpool in `Source/`, with its tables of 2058 numbers, and that of bytes | the table file is lexed in pieces by the kernel (`lex_append`) and parsed by lemmas on lists of numbers of any length (`Lang/Table`); every counting loop of the code and of the model is the same sequence of steps (`exec_for`, `model_steps`); then C49 and C50; theorems in `Props/SourceWhirlpool` |
| C97,C98 | the text of package test in `Source/`, with those of hex and of the hash and checksum packages | the loops of `findFirstMismatch`, `findLastMismatch` and `renderText` with the model's as invariants; `t.Errorf` is any function that appends the formatted message to a list in memory (`Logs`); then C57, and C87, C93, C95 for the hash object; theorems in `Props/SourceTest` |
| C99,C100,C101 | the text of hash/whirlpool/make_tables.go in `Source/` | its variables `rc` and `ct` live in memory (`loadMem`); the loops of the two builders are the same steps as the model's, from any contents of the arrays; the rest of the standard library that `main` uses is a parameter (`Tools`); then C63, C64 and the parsed text of whirlpool_tables.go; theorems in `Props/SourceMakeTables` |
| C102 | the text of endian/endian.go in `Source/` | its three variables live in memory; one run of the body for each way the machine can store `0xABCD`; then C55; theorems in `Props/SourceEndian` |
| C103 | the text of package net in `Source/` | C92's step with the nil callback and a root that is nil or was returned by `add` (never `none{}`), over sessions with recovered panics; then C85's argument that such a root lists something; nil receivers by running the bodies; theorems in `Props/SourceNetZero` |
| C104 | the texts of the checksum, ripemd and whirlpool packages in `Source/`; `Lang/Many`: runs of a program with many objects (`Uses`), spec `Spec/Chunks` | one step of any object from `Implements` (C87, C93, C95), with what it leaves of the rest of memory; induction over the run; exact answers for any history, with recovered panics, from C86, C41 and the streaming theorems (`Lemmas/Chunks`); theorems in `Props/SourceMany` |
| C105 | the text of package net in `Source/`; runs of a program with many trees (`Forest`) in `Props/SourceForest` | C92's step, with the other trees as the outside world; induction over the run; which addresses a tree holds after calls of which some panicked, by the shape of the tree (`Lemmas/IpPartial`) |
| C106 | all texts in `Source/`; runs of a program with hash objects and trees (`Library`), and the repository as one program (`repository`), in `Props/SourceLibrary` | induction over the run: what happens to a tree leaves hash objects alone (C92's step with them as the outside world), and the other way round; then C104 and C105 |
| C107 | `Model/Net`; sizes of trees in `Lemmas/IpSize` | in a tree in normal form every `treeNode` is above a block, and a block is below as many as its prefix is long; an addition at height k makes at most k `treeNode`s; theorems in `Props/NetSize` |
| C108 | texts of package net; the bound of the interpreter (`run`), in `Props/SourceNetSize` | the runs of C92 end with small bounds; the outer loop of `AddRange` turns once per greedy block, of which there are at most 62 |
| C109 | `Lang/Lexer`, `Lang/Parser`; specs `Lang/Words`, `Lang/Grammar`; all texts in `Source/` | lexer: each kind of token in both directions, then lines; parser: induction over the fuel, one statement per parsing function (`Sound`); operators with the bound on what may follow (`NextBelow`); theorems in `Props/SourceGrammar` |
| C110 | texts of package net; `Props/SourceNetUse` | C92 composed with C16 to C24, C65, C66, C73, C74; a history of the model has one outcome (`Lemmas/IpOnce`) |
| C111 | `Bcc`, `Lrc`, `Luhn`; theorems in `Props/ChecksumBursts`, on bits (`getLsbD`) and decimal digits (`decDigit`) | parity of bits; columns of the exclusive or; the Luhn total as a sum over the places |
| C112 | texts of the checksum packages; `Props/SourceErrors` | C87 composed with C35, C44, C67, C69, C75, C111; two programs |
| C113 | texts of packages ripemd and whirlpool; `Props/SourceDigests` | C93, C95 composed with C47, C50, C53, C70; the forged object lies anywhere in memory |
| C114 | `Model/Whirlpool`: `lookup`; `Model/WhirlpoolTables`: `sBox` | for each output mask one number holds the counts of agreements for all 256 input masks, compared by the kernel for all 255 masks; for `lookup` the branch number of C78 makes the map from any d looked-up bytes to d bytes of the result a bijection, so no sum of bits of the result can ignore d of them; theorems in `Props/WhirlpoolLinear` |
| C115 | texts of package bytes; `Props/SourceCounter`, on the numbers that bytes denote (`leVal`, `beVal`) | C91 for one call; induction over the calls and what the program does in between |
| C116 | `Model/WhirlpoolTables`: `sBox`; `Props/WhirlpoolDegree`: a polynomial is a set of monomials, a monomial a number below 256 | coefficients are sums of values (the number of bytes between two different monomials is even); these sums by the kernel for all 255 masks |
| C117 | texts of packages codegen and hex; lexer, parser and interpreter of `Verif/Lang` on the text that they return; `Lemmas/Generated`, `Lemmas/GeneratedText`, `Props/SourceGenerated` | C90 gives the text; its lines and their tokens by the lexical grammar of C109; the parser by induction over the sections; evaluation by induction; `IsString` and `IsBody` also ask that the file exists and loads, so they are not empty |
| C118 | text of hash/whirlpool/make_tables.go and the texts of package whirlpool; lexer, parser and loader of `Verif/Lang` on the text that is written; `Lemmas/GeneratedTables`, `Props/SourceGeneratedTables` | C99 to C101 give the text; its lines by induction over the table, their tokens by the lexical grammar of C109, the parser and the loader by induction. `format.Source` is a parameter: the claim about the written file assumes that it keeps the syntax tree. A variable called `uint64` and the name `_` are left out: the first is no Go, which the loader does not notice, the second declares nothing |
| C119 | texts of package hex, two programs; `Props/SourceHexUse` | C89 with every case of a text (a value, a first character that is no digit, an odd number of digits), composed with C03 and C76 |
| C120 | texts of packages bcc, lrc, fletcher, luhn; `Props/SourceCounts` | C112's value of a message, and for each rest of a message the first byte (digit, pair of words) that gives the value: one, one, one, and one to four; counted with `Set.ncard` |
| C121 | texts of packages bcc, lrc, fletcher, luhn, ripemd, whirlpool, hex, codegen, bytes; `Props/SourceTime` | the fuel of each `run_…` lemma of `Code/`, made explicit; a call on a used object finds a state that the object can have, whatever came before. Package net has its bounds in C108 |
| C122 | texts of packages ripemd, whirlpool; `Props/SourceBlock` | C71 and C54 carried to the text through C93 and C95: `Write` of one block is one call of the function for blocks; uniqueness because a run of the text has one result and an object in memory one state |
| C123 | text of package net; `Props/SourceNetCopy` | C110; the blocks of a normal tree added one after another to an empty one give the tree (`Lemmas/IpCopy`), other orders by C73; that every list of calls can be made by writing the arguments to new memory before each call (C92) |
| C124 | texts of packages lrc, fletcher; `Props/SourcePieces` | what C37, C38 and C41 say of the model, carried to the text by C87 and compared between two programs; the count by C120; the exact condition for a byte apart by comparing both sums modulo 256^k-1 |
| C125 | texts of packages bytes, bcc; `Props/SourceParity` | C91 says what one call does; induction over the calls, as in C115; the lost string byte by byte; the block check character by C112 |
| C126 | text of package net; `Props/SourceNetRanges` | C92 and C110; canonical networks with the same addresses are equal; the greedy split (C66) of an aligned block is the block, so the calls can be exchanged for those of C123 |
| C127 | text of package net; `Props/SourceNetSame` | C110; every call with IPv4 arguments adds the greedy split of an interval to the tree (`Lemmas/IpSame`), and the split is determined by the interval |
| C128 | text of package net; `Props/SourceNetFold` | C110; the tree holds the blocks in address order, and a join takes the values of a left part and a right part; ranges enter as the blocks of their greedy split (`Lemmas/IpFold`) |
| C129 | text of package net; `Props/SourceNetShards` | C123 and C73: the copy of a list makes the same tree, disjoint calls may change places, so each part of a history can be exchanged in turn (`Lemmas/IpShards`) |
| C130 | text of bcc.go, lrc.go, the fletcher package and luhn.go; `Props/SourceJoined` | C112 gives each value as a sum; a Fletcher checksum is determined by its halves, and `words_append`, `runningTotal_append` split them |
| C131 | text of package net; `Props/SourceNetLookup` | C92 and C110: each entry is the interval between its two numbers, and the list is sorted and disjoint |
| C63,C64 | `Model/MakeTables`: the generator's text output | a reader for a fragment of Go source (`Spec/GoSource`: lexer with comments and automatic semicolons, declarations); lexing lemmas by induction over the table |

## Where code and property disagree

For each, the negation is a theorem with a concrete or general witness, and what does hold is a `_partial` theorem.

| id | code | what happens |
|----|------|--------------|
| C08, C09 | codegen | the output buffer is pre-sized with floor division; some section sizes make the function panic (exact condition proved) |
| C14 | net.CidrEqual | non-IPv4 addresses compare as 0.0.0.0, so all IPv6 networks with the same mask are equal |
| C15 | net.LastIpv4 | reads the first four of 16 bytes when the address is in 16-byte form |
| C21 | IpTree.AddRange | with end 255.255.255.255 the loop variable wraps and the call never returns |
| C23, C58 | IpTree.AddCidr / AddIp | 16-byte masks, IPv6 and non-contiguous masks add wrong sets; a non-IPv4 argument adds 0.0.0.0 |
| C27 | bytes.Add64BE..Add512BE | an over-long b contributes its last N/8 bytes, not its first |
| C28, C31 | bytes.Add16, Add32 | a too-short sum panics instead of returning the error |
| C29 | bytes.Add*BE | a longer than N/8 is copied beyond sum[0:N/8] |
| C30 | bytes.Add* | a shorter prefix of sum: LE adds all of sum, BE loses the prefix |
| C80 | bytes.Add* | AddN(sum, a, sum) stores a in sum before reading b, so it leaves 2a |
| C81 | bytes.Add*BE | the comments say short operands are zero padded at the end; the code pads in front |
| C84 | net.FirstIpv4 | returns the slice held by the network itself; storing into the result changes the network |
| C85, C103 | net.Tree{} | ListCidr of a zero Tree panics until the first addition. `AddRange` of an empty range on a nil *Tree returns (C85_nil) |
| C37 | LRC | negates on every Write, so chunking changes the result |
| C38 | Fletcher | Write panics for most lengths above 5803 and overflows at 5803 |
| C41 | Fletcher32/64 | chunks that do not end on a word boundary change the result |
| C59 | test.StringMatch | character counts are used as byte offsets, so the highlighted part is misplaced when multi-byte characters precede or follow the difference; every report ends in a NUL byte |
| C61 | test.HashHexTest | input that is not hexadecimal text counts as the empty message |
| C62 | hex error text | `string(byte)` encodes the byte as a code point: bytes above 127 appear as two other bytes |
| C64 | make_tables.genConst (not called by main) | an empty table gives a dangling `+` |

## Which code is modelled

Every non-test function of the repository, except as listed under "Not modelled".

| source | model |
|--------|-------|
| encoding/hex/hex.go, hex_256b.go, hex_tiny.go | `Model/Hex` |
| codegen/BytesToString.go, BytesToHexSep.go | `Model/Codegen` |
| net/Ipv4.go, Mask.go, Cidr.go, IpTree.go | `Model/Net`; IpTree.go again, with any callback, in `Model/NetCallback`, and for trees not made by `New` in `Model/NetZero`; all with memory in `Model/NetHeap` |
| bytes/Add.go, AddLE.go, AddBE.go, pad.go, Zero.go, Xor.go | `Model/Bytes` |
| checksum/bcc, lrc, fletcher, luhn; checksum/hash.go (interfaces) | `Model/Checksum`, `Go/Hash` |
| hash/ripemd/shared.go, ripe128.go, ripe160.go, ripe256.go, ripe320.go | `Model/Ripemd`, `Model/BlockHash` |
| hash/whirlpool/whirlpool.go, whirlpool_tables.go | `Model/Whirlpool`, `Model/WhirlpoolTables`, `Model/BlockHash` |
| hash/whirlpool/make_tables.go | `Model/Whirlpool` (tables), `Model/MakeTables` (text) |
| endian/endian.go | `Model/Endian` |
| test/Abbr.go, StringMatch.go, HashCompare.go | `Model/TestHelpers` |

Not modelled (`getValue` of the tree nodes, which nothing calls, is only in C103, from the text): `format.Source` and the file write of make_tables.go; allocation failure; concurrent use of one object (no type in the repository
claims to be safe for it); performance. `*testing.T` is the list of messages given to `Errorf`/`Error`.

Simplifications, each also stated at the definition:

* A buffer that is filled front to back and never read before it is full is built by appending.
* RIPEMD and Whirlpool have the same `Write` loop up to names; it is modelled once (`Model/BlockHash`) with the compression
  function as a parameter, and instantiated for both. The two sources were compared line by line.
* Objects hold arrays, so Go's struct copy in `Sum` is a copy; the model passes states by value.
* In the models of the single objects `append(in, …)` returns a value. The reuse of spare capacity of `in`, and arguments that share
  memory, are modelled in `Model/HashHeap` on top of them; C77 connects the two.
* `strings.Split(s, "")` is a parameter with the stated property that the pieces are non-empty and concatenate to `s`; the concrete
  UTF-8 explosion is also modelled (`explode`) and used for the negations.
* Interface values stored in the tree are a type parameter; the merge callback is a pure function parameter in
  `Model/Net`. In `Model/NetCallback` it is any function with side effects and panics that may use the tree, except that the
  function held by the tree stays the same; C72 connects the two.
* In `Model/Net` addresses and masks are byte lists. In `Model/NetHeap` they are slices of memory that the program changes; C83 connects
  the two. Networks there are non-nil; nil is in `Model/NetZero`.

## Source text

For the files in the table below the tie between code and model is a theorem: `Verif/Source` holds the text of the file, `parse` of that
text is computed by the kernel, and running the result (`GoLang.run`) is proved to do what the model does, for every memory
(`List Val`, of any contents), every argument and every object. `Returns` and `Panics` say that all large enough amounts of fuel give the same outcome; `run_mono` proves that
fuel only decides between an outcome and none.
`python3 tools/source.py` and `python3 tools/source_tables.py` write the files of `Verif/Source` again from `/repo`; `git diff` must then be empty.
`python3 tools/check_source.py` compares the texts in `Verif/Source` with the files line by line (without Lean) and lists files without one.

| package | claims |
|---------|--------|
| checksum/bcc, lrc, fletcher, luhn | C87, C88, C104, C106, C112 |
| encoding/hex | C89 |
| codegen | C90 |
| bytes (`endian.Platform` is a parameter; `C102_platform` connects it with what `init` of endian leaves) | C91, C115 |
| endian | C102 |
| net (trees made by `New`: C92; the zero `Tree`, nil pointers and `getValue`: C103; many trees: C105) | C92, C103, C105, C106, C108, C110 |
| hash/ripemd | C93, C94, C104, C106, C113 |
| hash/whirlpool | C95, C96, C104, C106, C113 |
| hash/whirlpool/make_tables.go, the generator | C99, C100, C101 |
| test | C97, C98 |

What the interpreter takes for granted, or leaves out:

* Lines are strings without their end; carriage returns are dropped. Raw strings are the only tokens that span lines.
* The fragment is the one the repository uses. Everything else is `stuck`, which is neither returning nor panicking, so a theorem that a call returns or panics is
  also a theorem that it stays within the fragment. Programs are not type checked: the compiler has accepted them.
* `int` has `W` bits and wraps; `W` is a parameter, 32 or more. Package-level initialisers are evaluated with 64 bits in the order of
  declaration. A constant is a value with no type until it is used; constant overflow is not looked for.
* In an assignment the bounds of the left side are checked before the right side is evaluated. Where both could fail, both panic; memory is the same.
* Memory is a list of objects. A slice is an object, a path into it, offset, length and capacity. `append` within capacity writes in place; beyond it
  allocates, with spare room given by the parameter `grow`.
* Local variables are values, except those listed as `boxed` (address taken), which live in memory. The lists are parameters of `Prog.Has`
  and were made by reading; a variable wrongly left out makes `&x` stuck.
* Variables of a package are values fixed when it is loaded, except those given to `loadMem`, which live in memory, one object each, in the
  order of declaration. Only the generator and endian assign to their variables. Memory at the start of a program is then what `loadMem` gives, and
  anything after it.
* `unsafe.Pointer` of the address of an element gives a value that can be converted to `*uint16` and assigned through; the assignment writes
  two elements, in the way that the machine stores 16 bits (any function, a parameter of C102). Any other use of it is stuck. C102 assumes
  that much of `unsafe.Pointer`.
* C100 and C101 assume of the standard library (`Tools`) that `bytes.NewBuffer` makes an object holding the bytes, to which `fmt.Fprintf` and
  `fmt.Fprint` append; that `Bytes` gives them in new memory (in Go it is the memory of the buffer, which nothing writes to any more); that
  `format.Source` is any function from bytes to bytes or an error; that `os.WriteFile` adds name and content to a list of files or gives an
  error and adds nothing; and that `log.Fatal` ends the program, which is `panic` in the interpreter.
* A panic keeps memory and drops local variables. There is no `recover`, `defer`, goroutine, channel or map in the repository.
* Of the standard library, `errors.New`, `fmt.Sprintf` with `%d` and `%s`, `strings.Split` with an empty separator, and what the files use of `math/bits`, `encoding/binary`, `bytes` and `net` are written by hand
  in `Lang/Std`.
* A function value is a function literal of the code, a function of the caller (`native`, any effect on memory), or nil, which panics when called.
  Function literals capture `boxed` variables only.
* A nil interface, a nil pointer and a nil slice are the same value, so a method call on nil is told apart by the methods declared in the package
  (`nilPanics`): if there are methods of that name, all with a struct as receiver, the call panics; otherwise it is a method of a slice type of the
  standard library. In the repository the first case is `each` of net/IpTree.go only, the second `To4` and `Size` of package net of Go.
* Methods of another package of the repository are called through interfaces only.
* `testing.T` is an object of the caller. C97 and C98 assume of it that `Errorf` appends the message formatted by `fmt.Sprintf` to a list in
  memory and does nothing else (`Logs`). Whether the caller's list can be observed otherwise is not modelled.
* The shift count of a constant may be a variable (`1 << mask`, net/IpTree.go:56): the constant is shifted exactly and then reduced to the type
  it gets, which is what shifting the converted constant gives.
* Outside the fragment, and `stuck`: `range` over a string, `for range s`, block comments, floating-point literals, a `default` that is not last,
  `[]byte(nil)`.

In C104 the rest of the program is arbitrary: `Uses.own` is any change of memory that leaves the objects alone (their fields are not
exported, so other packages cannot name them), and arguments are any slices that do not point into an object; `C104_goes` proves that no
method hands out such a slice. Likewise in C105 `Forest.own` is any change of memory that leaves trees alone, and the callbacks do that too;
for callbacks that use trees there is C92's step (`C92_step`), one call at a time. C106 is about programs that use both; there callbacks
may not use hash objects of the program either (`Quiet`). `repository` is the program that consists of all packages of the repository but
the generator (which is a program of its own); `C106_program` shows that it meets the assumptions of every property from C87 to C98 and
C103 to C106, so these do not contradict each other. `endian.Platform` is there a constant, which `C106_start` shows to be what `init`
leaves; assignments to it by the program after the start are not modelled.

## Wrong programs

`seeded/LOG.jsonl` records edits of the model in a scratch copy. `theorems_failed` lists the property theorems whose proof no longer goes
through, directly or because a lemma it uses fails; `theorems_tightened` what was changed here when the claim at stake survived.

The interpreter is on the trusted side of C87 to C106, C108, C110, C112, C113, C115, C117 to C131, so it is tested too: `Conformance/Language` runs small Go programs whose results the
language specification fixes (`tools/gen_language.py`), and edits of `Lang/` are tried against it.

Its front end is not trusted: C109 proves that the lexer finds exactly the tokens that the text spells by `Lang/Words`, and that the tree found by the
parser is one that `Lang/Grammar` gives to these tokens. What has to be read is these two files. They share with the lexer and the parser the
syntax trees, `nameOf`, `n!` and `bytesOf`, and nothing else. Where they are wider than Go: names on the left of `:=`, keys and types of
composite literals may be in parentheses; what an interface demands is any tokens with balanced braces; the words of the language are the only
restriction on names. The tokens `func(a)(b)` have two trees (a function type with a result, or one that is converted to); the parser takes the first,
as Go does. Nothing is claimed about texts for which the parser finds no tree: the texts of the repository all have one.

## Trusted base

* Lean's kernel.
* The axioms `propext`, `Classical.choice`, `Quot.sound`, and no others. `AXIOMS.md` lists them per theorem, as printed by
  `#print axioms`.
* The reading of the Go source recorded in the citations. The code was never run; the model was re-read against it twice.
  The model is also run (by kernel evaluation, `Verif/Conformance`) on the tables of the repository's own unit tests: hex, codegen,
  bytes, net, checksum, test and RIPEMD. All agree. These are tests, generated by `tools/gen_conformance.py`; no claim rests on them.
  Entries of a million bytes are left out, and Whirlpool is compared on two vectors only (`Spec/WhirlpoolVectors`).
* The models of the Go language and of the standard library functions listed above, plus `fmt` (`%d`, `%016x`, `%s`) and
  conversion of a byte to a string.
* The specifications in `lean/Verif/Spec`. Those of RIPEMD and Whirlpool were written from the published algorithms and are
  compared with published test vectors by kernel evaluation (`Props/Ripemd`, `Spec/WhirlpoolVectors`); these are tests of the
  specification, not proofs about the code.
