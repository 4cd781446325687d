# Formal model of EasyMock — design

Source under study: `/repo` (lcarlier/EasyMock, C and C++), read as text, never built or run.
Prover: Lean 4.33.0, core library (single Mathlib modules only where named in an `import`).

## 1. Trusted base

* Lean's kernel, and the three standard axioms `propext`, `Classical.choice`, `Quot.sound`.
  The axioms of every property theorem are printed by `lean/Verif/Axioms.lean` during the build;
  no own axiom, no `sorry`, no `native_decide`, no `bv_decide`.
* The reading of the C/C++ text. Every model definition cites the file and lines it models.
  Nothing ties the model to the code mechanically; the code is never run.
* Compilers, libc (`malloc/realloc/free/strcmp/strcat/memcpy/vsnprintf`), libstdc++ containers, ctemplate
  and libclang are trusted to do what their documentation says. `malloc`/`realloc` may return NULL (a model parameter
  where the property is about it).
* Single-threaded use of the framework, except in C99 (the code has no synchronisation at all).

Undefined behaviour is a distinct outcome (`ub`) wherever the modelled code could reach it, process termination
(`exit(1)`) is another (`exit`); theorems say which outcomes occur.

## 2. Modules and what they model

| Module | Code modelled | Not modelled |
|---|---|---|
| `CString` | `cstring.c`, all functions, byte buffers, heap blocks, 32-bit `easyMock_size_t`, allocation failure | uninitialised content of fresh heap memory (reads of it are `ub`) |
| `Mocked` | `MockedFunction.c` (all functions), `MockedCppFunction` in `MockedFunction.h` | C++ move/copy costs |
| `Framework` | `easyMock.cpp` class `EasyMock` and its C API, the generated code of a mock (template lines 609–791) | libunwind, libdwfl and demangling (`Framework/Backtrace`: their answers are a parameter; elsewhere the call stack is an opaque suffix), `vsnprintf` itself (messages are structured data, rendered by a separate pure function) |
| `Matcher` | `easyMock_matcher.cpp`, `cmp<T>` of `easyMock.h` | floating-point rendering (`%f`) – values are an abstract type with an equality test that need not be reflexive (NaN) |
| `StructCmp` | comparator template 503–561 and generator functions 1713–1945, 2243–2370 | ctemplate expansion: generated code is represented by its AST |
| `CmdLine` | `CmdLineParser.cpp`, `main.cpp`, `MainCodeGenerator.cpp` | the file system (a parameter: which paths exist, which writes succeed); the parser and generator are represented by the configuration they receive |
| `Disk` | `generateCodeToFile` and its two calls (1237–1254, 2372–2419) on the contents of files | which file a path leads to and which writes fail are parameters |
| `Types` | the type classes: equality, hash, raw hash, typedef and qualifier stripping, `CType`, `Enum` | `boost::hash_combine` arithmetic: a parameter (`Hasher`). Hash equalities are proved for every hasher; hash inequalities for the free hasher, whose values are the terms of the combined inputs, i.e. up to collisions. `std::variant`/`boost::variant` hashes include the alternative index. The hash caches of `EasyMock_Hashable.h` are modelled separately (`Types/Cache.lean`) on an object tree |
| `Gen` | function selection, de-duplication, naming, parameter lists, output parameters, macros, guards, file names | ctemplate text expansion outside the modelled fragments |
| `Emit` | `--generate-types`: `generateDeclarationOfUsedType` and what it calls (966–1025, 1084–1178, 1367–1370, 1947–2241, 2472–2583), the type part of the header template | C++ mode, comparators; the hash is a parameter |
| `MockCode` | the statements generated for one function (564–596, 609–748) as syntax over names, and an interpreter that resolves them; `MockCode/Reference`: functions with reference parameters and results (285–287, 571–588, 615–617, 661–674, 1503–1510, 1580–1598) | the text of the statements other than calls and parameter lists (see `CFile`); the content of the objects `default_p` |
| `MockCode/File` | the functions of a generated file (597–600, 749–791), `easyMock.cpp` 54–83 and 195–216 as a process of several files | the order of dynamic initialisation of C++ objects; scopes of classes and namespaces |
| `Parser` | functions of `LLVMParser.cpp` on texts: `trim`, attribute arguments, `removeComments`, `getDeclareString`, macros and storage classes of return types; `getEasyMocktype` with records, caches and members; `getNamespace`; `setFunctionAttribute`; `getFunctionDeclaration` with results and parameters; the arguments given to clang (`Flags.lean`: 1283–1318); which record objects are still there after parsing (`Alive.lean`: 40–62, 872–877, Function.cpp 148–156) | clang's AST, lexer and source manager: texts, declarations and types are inputs; templates, lambdas and member functions of classes; `std::regex` for the patterns of the code only |
| `CDecl` | no code: a reader of C declarations (`Spec.lean`), the types of the generator (`Types.lean`) and of clang (`Clang.lean`) as a declaration should say them; the rest are proofs about `Parser` and `Gen` | arrays, templates |
| `CFile` | the text of the generated header (796–919, 213–229, 450–455, 954–961) and of the generated source (462–791 with 213–455 and 503–561), the texts of its types (1473–1511, 1576–1613, 2421–2470), and readers of C/C++ files (`Spec.lean`: lines, comments, directives, scopes, declarations; `Code.lean`: statements and blocks of bodies) | `#if`, `#else`, `#undef`, expansion of macros in the reader; the text of the repeated types is a parameter of the header, which `CFile/TypesModel` models for C (834–889, 921–939, 2077–2241, 2437–2470, 2491–2583) |
| `Macro` | `MacroBrowser` from the tokens clang gives (PARSER 1143–1224) to the lines written for macros (GEN 843–851, 1257–1298); a preprocessor for `#define`, `#undef`, `#ifdef`, `#ifndef`, `#endif` | clang's lexer: the tokens and parameters of a definition are inputs; `/* */`, raw strings, lines joined by `\`, `#` and `##` are not read by the preprocessor |

## 3. Properties: plan

C01 `Framework`: refinement of the step machine to a history specification (k-th call ↔ k-th expectation), induction over operation lists.
C02 `Framework`: branch theorem on every reachable state.
C03 `Framework`: verdict iff, stated on the history (counting expectations and calls in the operation list).
C04 `Framework`: closed form of "expect all, then call all" in ordered mode; iff.
C05 `Framework`: same, unordered; corollary for interleavings via per-function projections.
C06 `Framework`: state after init equals the freshly loaded state (equality up to heap ids), hence equal observations for every continuation.
C07 `Framework`: flag of a history is the last setting; documented default is refuted (`easyMock.h:103-110` says on, constructor sets off) – persistence proved, default disproved: partial.
C08 `Framework`: projection theorem – observations of one function equal those in the filtered history.
C09 `Framework`: error list of a call is the filtered map of its failing matchers.
C10 `Framework`: memory model, writes iff configured; frame theorem.
C11 `Framework`/`Mocked`: invariant excludes the BUG outcome and exits; the wrap at 2^32 is shown to be a real exception.
C12 `Mocked`: invariant + boundary theorem.
C13 `Mocked`: bisimulation C/C++.
C14 `Mocked`: allocation ledger invariant.
C15 `Framework`: log monotone; getters.
C16 `Framework`: sticky verdict, repeated checks.
C17 `Framework`: registration lemmas.
C18 `Framework`: ordinals from the refinement theorem.
C19 `Framework`: corollary of the refinement theorem.
C20 `Framework`: invariant on queue length; ordered content when no order error.
C21–C24 `CString`: refinement of the byte machine to a pure list of bytes.
C25–C27 `Matcher`: exactness, bounded buffer, injectivity of decimal/hex rendering (128-bit: refuted).
C28–C29 `StructCmp`: correctness of the generated comparator AST against a structural-equality specification; the typedef-to-pointer case is refuted.
C30 `StructCmp`: naming/once invariant of the comparator generator.
C31–C35 `CmdLine`: induction on the argument list, rendering function, permutation lemma; the empty-string corner of C35.
C36 `CmdLine`: refuted as documented (checks happen before `chdir`); partial for absolute paths.
C37 `CmdLine`: refuted for write failures; partial.
C38–C42 `Types`: structural induction; refutations where `isEqual`/`getHash` disagree.
C43 `Types`/`Gen`: partial (distinct 32-bit values).
C44–C50 `Gen`.
C54 `Emit`: invariant of the traversal; validity against a checker of C declarations (`Emit/Spec.lean`).
C51, C52, C69, C70 `Parser`: closed forms of the text functions against descriptions by segments, parts and words.
C53, C72 `Parser`: an inductive relation between clang's types and the generator's types (`TypesSpec.lean`), shown to hold
for the results by an invariant on the known types and the cache.
C71 `Parser`: the depth is bounded by the number of names and the nesting of records without name; the result does not depend
on the bound of the model.
C73, C74 `Parser`: by cases; by induction on the scopes.
C75 `Parser` and `Gen`: the printed attributes against the written ones, compared without blanks.
C76 `CDecl`: the text of the mock is read back; parser soundness (C53) gives the types, a simulation of the reader over the
texts of types gives the declaration.
C55 `Framework` (instance check of the generated member-function mock).
C56, C57 `Types`: predicates by cases; declaration texts by an inverse reading function.
C58 `StructCmp`: invariant on the names recorded as generated.
C59–C65 `Gen`: scoping of names in the generated text, forwarding of arguments, distinct names, attributes, function
pointers, return-value parameter.
C61 `CFile/DefinedSpec`, `Props/Defined`: a reader of its own finds the name which each piece of the source defines; the list of all names is
computed from the text, and a key per name (function, kind of name, number of parameter) shows that they are distinct.
C77 `MockCode/File`: a process of generated files, stepped statement by statement, follows `Framework`'s process state by state.
C78 `CFile`: a generated header is read piece by piece; each piece takes the reader from one state between declarations to another.
C79 `CFile`: the text of a generated source is read in the same way; the bodies are lists of lines (`SourceModel.lean`), their
statements are those of the abstract syntax of `MockCode` and `StructCmp` as `Meaning.lean` writes them down.
C80, C81 `CFile`/`CDecl`: the texts of members and of the parameters of Expect functions (`Typed.lean`) are read with the reader of
declarations; `TypedProgram.lean` starts from clang's types, as C76 does.  `TypedCpp.lean` reads the C++ text with the reader of
parameter lists and members in `CDecl/CppSpec.lean` (templates with one argument, members with initialiser).
C46 `Props/Output`: the output offered for a parsed type is computed from the type of the program along the derivation of `Den`.
C85 `CFile/TypedText`, `CFile/ProgramText`, `CFile/CmpDeclared` (the signatures of the comparators declare matchers), `Props/TypedFile`: the texts of types have matching brackets and a first word of their own, so
that the functions of a parsed program meet the conditions of C78 and C79; C76, C80 and C81 say what the declarations read as.
`CFile/ProgramCpp`, `Props/TypedCppFile` do the same for C++ (namespaces, classes, references, matchers as templates).
C86 `Props/CmpType`: an invariant of the generation of comparators: the registry holds typedefs of the program, every comparator belongs to a
record. `CFile/CmpText` shows that their texts meet the conditions of C79.
C87 `Props/Backtrace`: induction over the frames, every frame being known, final, ending the process, or without directory.
C88 `CFile/TypesSpec` says what the text of a forward declaration, typedef, enumeration and composite type must look like (members by the
reader of declarations of `CDecl`); `TypesRead`, `TypesMembers`, `TypesItems`, `TypesFile` read the text piece by piece, `Props/TypesText` puts it
into headers. Which types occur comes from the strengthened `C54_sound` (names, guards) and `C54_members` (members of the declared type).
C89 `Props/Disk`: every outcome of writing one file, then of two, then of a sequence of runs; paths are equal only for equal directory, stem and kind.
C90 `Props/Flags`: a reader of compiler arguments (`items`) is applied to the arguments made by the parser.
C91 `Props/LocalDecl`: the declaration of a type without name inside its comparator (`CFile/LocalModel`), read like the types of C88, and checked by the compiler of C54; `CFile/LocalText`: it can stand among the statements of the comparator.
C92 `Props/Macro`: the `#define` lines written with `-t` (`Macro/Model`), read by a preprocessor (`Macro/Spec`: tokens, definitions, conditionals).
C93 `Props/MacroText`: expansion (`Macro/Expand`, hide sets) depends only on the macros which can be met (`Macro/Agree`).
C94 `Props/Members`: `CFile/MemberSpec` says when a text declares a record of the program (clang's record, not the parser's type); `CDecl/Members` and `CFile/MemberText` prove it for each member from the description which C53 proves of the parser, `CFile/MemberProg` that every composite type of the functions is a record of the program.
C95 `Props/ProgCmp`: `StructCmp/ProgSpec` says from clang's declarations alone which values are objects of a record and which of them are equal; `StructCmp/ProgLemmas` proves that the parser's description (C53, C72) has the same objects and the same equality, so that C28 and C29 speak about the mocked header.
C96 `Props/CallCmp`: the comparators of C95 as matchers (`StructCmp/CallModel`) in the histories of the framework; which byte belongs to which member is a parameter (`Layout`). `Props/TypedefCmp` has C95 and C96 for programs whose structures have typedefs (`StructCmp/TypedefSpec` lists the names of a program).
C97 `Props/Format`: `StructCmp/PrintfSpec` is `printf` as the C standard has it, for the sizes of x86-64 (conversions without flags and widths, promotions, a format that does not fit has no meaning); `StructCmp/FormatModel` is the call of `easyMock_snprintf` in a comparator. The texts of floating-point numbers and the types of enumerations are parameters.
C98 `Props/ReadCmp`: the comparators of C95 on objects with members that cannot be read (`StructCmp/ReadModel`); reading one is undefined. `HasScalar` says from clang's declarations that an object of a type has something to compare.
C99 `Props/Threads`: the accesses of the C `MockedFunction` interleaved by an arbitrary schedule (`Mocked/Threads`), sequentially consistent. `Locked` says that the threads hold a lock while they call.
C100 `Props/Nested`: the body of a mock cut where it calls matchers (`Framework/Nested`), so that other calls can start and end in between; a call without nested calls does the same as in `Framework/Model` (`C100_agrees`).
C82 `Parser/Alive`, `CDecl/File`: record objects are told apart by tag and typedef name; every object of a converted type belongs to
a mention of its record, so that equal hashes in the list of classes lead back to the declarations.
C83, C84 `MockCode/Reference`: a process with references is shown to be, operation by operation, the process of `Framework` whose
matchers look behind the references, as long as the objects exist.
C66, C67 `MockCode`: the interpreter of the generated statements is proved equal to the positional description in `Framework`.
C68 `Gen`: texts of the prototypes.

### Choices in `StructCmp`

* The hash used as key of the typedef registry is a parameter (`Env.key`).
* C28–C30 hold under two hypotheses on the program: `Naming` (a comparator name belongs to one type, prefixes keep names
  apart) and `Regular` (types complete, no typedef hiding a pointer to a composite type, a type declared inside others is
  always met with the same prefix). `C28_exact_plain_partial` derives them from plain conditions on a C program. Each hypothesis
  is shown necessary by a refutation.
* Comparators are interpreted on trees of scalars; calling a missing function, and using an object as one of another type,
  are outcomes of their own. Depth of calls is bounded by a fuel parameter; theorems say "for every fuel from some point on".
* A comparator carries the text of the type it converts its arguments to (`decl`, 2306–2323). The local declaration of a type without
  tag inside the comparator (2287–2291) is modelled in `CFile/LocalModel` for C (no functions in the bodies of types); it is part of the
  text of the source (`SrcCmp.inner`).
* Not represented: inner dimensions of arrays (the parser drops them, elements are then compared by address), C++ references
  as members beyond their referent, padding.

### Choices in `Gen`

* A function is described by a section (`FunSection`): the dictionary values the templates use. Texts are produced from the
  section by one definition per template fragment (parameter lists, matcher lists, output lists, signatures, prototypes).
  White space and line breaks inside a fragment are those of the template.
* Parameter lists and the extra declarations of function pointers are mutually recursive (`PList`, `XDecl`); the counter
  of unnamed parameters is threaded through in the order the generator visits them.
* Scoping (C59) is modelled by the list of names each block of the generated mock declares; C block scope rules are
  trusted.
* C44/C45 take the parser's filter and the generator's filter together; the raw hash is a parameter.
* Attribute arguments, texts of types and names are arbitrary strings.

### Choices in `Emit`

* The state is the set of sets and dictionaries of the generator; sets hold hashes. Iterator invalidation and the pointer
  to a local variable are flags of the state.
* `Emit/Spec.lean` is the reference: a preprocessor for the guards and a checker of declarations (tags, typedef names,
  enumerations, completeness of members, no redefinition), which knows nothing of the generator.
* `Clean` (in `Emit/Good.lean`) is the hypothesis of the validity theorem. Each part is shown necessary by a refutation
  (typedef of a typedef, callback typedef with a typedef parameter, typedef of an enumeration, shared guards, references,
  empty enumerations, late types inside late types). An example shows that it holds for a program with a late type.

### Choices in `MockCode`

* The data structure is a list of contents in the order of its members; a member is found by its name. `Framework.Exp` is the same
  content by position; `layout` is the correspondence. `MockedFunction_addExpectedCall` copies the structure as it is, so an
  expectation of `Framework` stands for the content that the common function filled.
* The interpreter is stuck (`none`) when a name does not mean the parameter, a member does not exist, or a name is declared
  twice. `PlainNames` in `Props/MockCode.lean` is what the theorems ask from the names.
* The Expect functions of a member function are text with an empty or a merged entry unless it has one parameter, or neither
  parameters nor result (C49); the interpreter is stuck for the others (`listsOk`, `C66_refuted_member`).
* A reference is held as the bytes of the address it refers to. An object that does not exist any more is unmapped memory; the
  model has no operation that ends the life of an object, so such addresses are unmapped from the start.
* Not modelled (seen in the source): copies with `memcpy` of C++ parameters that are not trivially copyable.

### Choices in `Parser`

* A text is a list of characters. Patterns of `std::regex` are functions from a text to the rest behind the match; `.*` is
  greedy and stops at line ends.
* The token loop of `getFunctionReturnValue` is modelled with the lexer's behaviour on identifiers, numbers and one-character
  tokens. It advances by the length of the token but starts at the blanks before it, as the code does.
* The recursion of `getFromContainerType` has a bound on its depth in the model (`fuel`). `Parsed` says that some bound is
  enough; `Parsed.unique` that all such bounds give the same result.
* `structKnownType` is passed by reference in the code and by value in the model: each call removes exactly what it inserted.
* The relation `Den` leaves open what the code leaves to the order of parsing: whether a record is described by its members or
  by its tag behind a pointer, and the flag `embedded`.
* `Emit` prints a member with its type; the code prints the recorded text (`GEN:2199-2200`). C69 says when they agree.

### Choices in `CDecl`

* The reader is a machine over tokens with a stack of open parameter lists, written without regard to the texts the generator
  makes. It knows words, pointers, references, qualifiers, functions, grouping parentheses, named parameters and `...`.
* A name qualified with `::` is one word. A qualifier behind the parameter list qualifies the function. A parameter written as a
  macro is declared with the text of the macro; the theorem asks that the text reads as the type of the parameter (`ParamsOf`).
* A typedef is known by its name, a record by keyword and tag, a scalar by its words. `volatile` at the top of a parameter is not
  part of the type of the function and may be dropped.
* For a result that is no function pointer the text comes from the source; the theorem says that the mock has the result the
  kept words of the source say.

### Choices in `CFile`

* The reader follows the phases of a compiler: lines joined at backslashes, comments, directives, then declarations cut at `;` and
  braces. A brace opens a scope behind `namespace` or `extern "C"`, a body behind `)`, and else members or an initialiser.
* A macro is known by the word the preprocessor reads: `guardWord` is the guard up to the first character that is no part of an
  identifier (`#define _MY.A_EASYMOCK_H` defines `_MY`).
* A body is cut into statements and blocks at `;` and braces outside brackets and quotes; braces of an initialiser stay in the
  statement. The members of a structure are read in the same way.
* `SrcFun` carries the texts of the member types; C79 holds for all texts whose brackets match. `srcFun` in `Typed.lean`
  computes them from the types, as the generator does (C80). The declaration of an anonymous type inside its
  comparator is the text `SrcCmp.inner` (C91).
* The reader fails (`none`) on a namespace whose name is no identifier, on an unbalanced brace, on a directive it does not know.

Refuted claims keep their English statement, have a theorem with the negation and a concrete witness, and a `_partial`
theorem for the part that holds.
