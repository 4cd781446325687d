{"id": "C01", "title": "k-th call gets the k-th expectation", "statement": "For every mocked function, the k-th call made since the last reset is served by the k-th expectation registered since the last reset (if that expectation was registered before the call): the call compares its arguments with exactly that expectation's values and returns exactly that expectation's to_return, whatever is done with other mocked functions in between.", "quantifier": "all interleavings of expectations, calls, checks, option changes and resets over any number of mocked functions", "why_tests_cant": "The claim is about arbitrary interleavings of unboundedly many functions; the suite only runs a handful of fixed sequences.", "anchors": ["src/easyMockFramework/src/MockedFunction.c:addExpectedCall/getCurrentCallParam/addActualCall", "src/easyMockGenerate/src/CTemplateGenerator/CodeGeneratorCTemplate.cpp:generateMockedFunction template 609-748"]}
{"id": "C02", "title": "Unexpected call is reported once and returns a zeroed value", "statement": "A call for which no expectation is available appends exactly one error, which names the called function, returns an all-zero value, runs no matcher, writes no output parameter and does not consume the recorded global call order.", "quantifier": "all histories, all functions, all argument values", "why_tests_cant": "Needs every reachable framework state, including states after wrong-order calls and resets.", "anchors": ["src/easyMockGenerate/src/CTemplateGenerator/CodeGeneratorCTemplate.cpp:614-628", "src/easyMockFramework/src/MockedFunction.c:addActualCall"]}
{"id": "C03", "title": "easyMock_check verdict is exact", "statement": "easyMock_check returns 1 if and only if no error has been recorded since the last easyMock_init and, for every mocked function of a registered mock file, the number of calls equals the number of expectations; every registered mock is checked even when an earlier one fails.", "quantifier": "all histories, any number of registered mock files and functions", "why_tests_cant": "Both directions of an iff over all histories; tests sample a few failing and passing scenarios.", "anchors": ["src/easyMockFramework/src/easyMock.cpp:verifyEasyMock/verifyRegisteredMockedFile", "src/easyMockFramework/src/MockedFunction.c:MockedFunction_verify", "src/easyMockGenerate/src/CTemplateGenerator/CodeGeneratorCTemplate.cpp:767-777"]}
{"id": "C04", "title": "Ordered mode accepts exactly the expected sequence", "statement": "With call-order checking on, a scenario that registers its expectations and then makes its calls is accepted by easyMock_check if and only if the sequence of called functions is exactly the sequence in which the expectations were registered and every installed matcher accepts.", "quantifier": "all expectation lists, all call lists, all matchers", "why_tests_cant": "Soundness and completeness of an acceptance condition over all sequences cannot be sampled.", "anchors": ["src/easyMockGenerate/src/CTemplateGenerator/CodeGeneratorCTemplate.cpp:679-688", "src/easyMockFramework/src/easyMock.cpp:popCurrentCall/addCall"]}
{"id": "C05", "title": "Unordered mode accepts exactly the per-function sequences", "statement": "With call-order checking off, a scenario that registers its expectations and then makes its calls is accepted if and only if every function is called exactly as many times as expected and the k-th call of each function passes the matchers of its k-th expectation; in particular any interleaving of per-function call sequences gives the same verdict and the same returned values.", "quantifier": "all expectation lists, all call lists and all their per-function-order-preserving interleavings", "why_tests_cant": "Quantifies over all interleavings.", "anchors": ["src/easyMockGenerate/src/CTemplateGenerator/CodeGeneratorCTemplate.cpp:609-696", "src/easyMockFramework/src/easyMock.cpp:verifyEasyMock"]}
{"id": "C06", "title": "easyMock_init isolates test cases", "statement": "After easyMock_init every later observation (returned values, outputs, error texts, verdicts, process terminations) is the same as on a framework that has just loaded the same mocks with the same option settings: nothing of the previous test case leaks.", "quantifier": "all histories before the init and all continuations after it", "why_tests_cant": "An observational-equivalence claim over every prior state and every continuation.", "anchors": ["src/easyMockFramework/src/easyMock.cpp:init/initRegisteredMockedFile/emptyError/emptyFifoCall", "src/easyMockFramework/src/MockedFunction.c:MockedFunction_reset", "src/easyMockGenerate/src/CTemplateGenerator/CodeGeneratorCTemplate.cpp:754-759"]}
{"id": "C07", "title": "Options persist and the documented default holds", "statement": "easyMock_checkCallsOrder and easyMock_printCallStack settings last until changed again, including across easyMock_init, and the default is the documented one (order checking on).", "quantifier": "all histories", "why_tests_cant": "Persistence quantifies over all histories; the default is never tested without being set first.", "anchors": ["src/easyMockFramework/src/easyMock.cpp:46-52,180-193", "src/easyMockFramework/include/easyMock.h:97-110"]}
{"id": "C08", "title": "Mocked functions do not interfere", "statement": "With order checking off, the values returned, outputs written and errors reported for one mocked function depend only on the operations performed on that function (plus init and option changes), not on operations on other functions.", "quantifier": "all histories and all functions", "why_tests_cant": "Non-interference is a statement about pairs of histories.", "anchors": ["src/easyMockFramework/src/MockedFunction.c", "src/easyMockGenerate/src/CTemplateGenerator/CodeGeneratorCTemplate.cpp:609-748"]}
{"id": "C09", "title": "Every failing matcher is reported, once, in parameter order", "statement": "When an expected call is made, each parameter with a matcher that rejects contributes exactly one error, in parameter order, carrying the ordinal of the call and the matcher's own message; parameters without matcher or whose matcher accepts contribute none, and one failing parameter never hides another.", "quantifier": "all parameter counts, all matchers, all histories", "why_tests_cant": "Every parameter count, matcher behaviour and history.", "anchors": ["src/easyMockGenerate/src/CTemplateGenerator/CodeGeneratorCTemplate.cpp:646-676"]}
{"id": "C10", "title": "Output parameters are written exactly when configured", "statement": "A call writes to a caller-supplied output pointer if and only if the call is expected, the order check (if enabled) passes and the expectation configured an output buffer for it; then exactly the configured number of bytes is copied from the buffer and no other caller memory is touched.", "quantifier": "all histories, all output configurations, all memories", "why_tests_cant": "Frame condition over all memories and sizes.", "anchors": ["src/easyMockGenerate/src/CTemplateGenerator/CodeGeneratorCTemplate.cpp:689-694,709-748"]}
{"id": "C11", "title": "Internal-error paths are unreachable", "statement": "As long as a mocked function is called fewer than 2^32 times between resets, no sequence of API calls makes the framework report its internal 'BUG IN EASYMOCK' error, report an empty expected-call name, or terminate the process, except by registering more than the 256 supported expectations for one C mock.", "quantifier": "all API histories within the stated counter range", "why_tests_cant": "Unreachability of a state.", "anchors": ["src/easyMockFramework/src/MockedFunction.c:30-68,139-147", "src/easyMockGenerate/src/CTemplateGenerator/CodeGeneratorCTemplate.cpp:630-635", "src/easyMockFramework/src/easyMock.cpp:154-164"]}
{"id": "C12", "title": "Expectation capacity is exactly 256 and overflow is fatal, not silent", "statement": "A C mock accepts exactly 256 expectations between resets (used or not); the 257th terminates the process instead of overwriting or dropping one, and never affects an earlier one. C++ mocks have no such limit.", "quantifier": "all histories", "why_tests_cant": "The boundary has to hold after every mixture of expectations, calls and resets.", "anchors": ["src/easyMockFramework/src/MockedFunction.c:30-50", "src/easyMockFramework/include/MockedFunction.h:75-80,151"]}
{"id": "C13", "title": "C and C++ mock back-ends are equivalent", "statement": "Up to the C capacity limit, the C implementation (slot array with owned copies) and the C++ template implementation (growing vector) give identical results for every sequence of operations.", "quantifier": "all operation sequences with at most 256 expectations per reset period and fewer than 2^32 calls", "why_tests_cant": "Trace equivalence of two implementations.", "anchors": ["src/easyMockFramework/src/MockedFunction.c", "src/easyMockFramework/include/MockedFunction.h:24-146"]}
{"id": "C14", "title": "Expectation copies are freed exactly once", "statement": "Every copy of expectation data made by the framework is released exactly once: never twice, never used after release, and none is left allocated after easyMock_init.", "quantifier": "all histories", "why_tests_cant": "Leaks and double frees depend on the history; sanitiser runs only see executed paths.", "anchors": ["src/easyMockFramework/src/MockedFunction.c:30-68,94-124"]}
{"id": "C15", "title": "Error log is append-only and the two getters agree", "statement": "Between two inits errors are only appended; easyMock_getErrorArr reports exactly the recorded messages in order with the right size, easyMock_getErrorStr is their newline-joined concatenation, both return NULL exactly when nothing was recorded.", "quantifier": "all histories", "why_tests_cant": "All histories and all message contents.", "anchors": ["src/easyMockFramework/src/easyMock.cpp:85-132,226-233"]}
{"id": "C16", "title": "A failed verdict is sticky", "statement": "Once easyMock_check would return 0 because an error was recorded, it keeps returning 0 until easyMock_init; calling easyMock_check repeatedly never changes the verdict and never changes any later returned value.", "quantifier": "all histories, any number of repeated checks", "why_tests_cant": "All continuations.", "anchors": ["src/easyMockFramework/src/easyMock.cpp:71-83,204-216", "src/easyMockFramework/src/MockedFunction.c:101-111"]}
{"id": "C17", "title": "Registration lifecycle", "statement": "Loading a mock file more than once has no additional effect; after unloading it, its functions no longer influence easyMock_check or easyMock_init, and the other files are unaffected.", "quantifier": "all sequences of load/unload mixed with other operations", "why_tests_cant": "All orders of load and unload.", "anchors": ["src/easyMockFramework/src/easyMock.cpp:54-62", "src/easyMockGenerate/src/CTemplateGenerator/CodeGeneratorCTemplate.cpp:779-791"]}
{"id": "C18", "title": "Reported call ordinals and counts are right", "statement": "The call number in every argument-mismatch error equals the ordinal of that call since the last reset, and the expected/actual numbers in a count-mismatch error equal the numbers of expectations and calls since the last reset.", "quantifier": "all histories with fewer than 2^31 calls", "why_tests_cant": "All histories.", "anchors": ["src/easyMockGenerate/src/CTemplateGenerator/CodeGeneratorCTemplate.cpp:646-676", "src/easyMockFramework/src/MockedFunction.c:84-87,101-111"]}
{"id": "C19", "title": "Early calls are not forgiven", "statement": "A call made before any matching expectation makes the verdict 0 even if expectations are added afterwards to even up the numbers, and the expectation registered at the position of the early call is never served.", "quantifier": "all histories", "why_tests_cant": "All histories with late expectations.", "anchors": ["src/easyMockFramework/src/MockedFunction.c:70-82"]}
{"id": "C20", "title": "Pending-order queue mirrors pending expectations", "statement": "As long as every mock is reset together, the recorded order queue holds at every point exactly one entry per expectation not yet consumed by an expected call; while the call order is checked and no error was recorded since the last init, it lists exactly the pending expectations, in registration order.", "quantifier": "all histories without unload", "why_tests_cant": "Invariant over histories.", "anchors": ["src/easyMockFramework/src/easyMock.cpp:134-164", "src/easyMockGenerate/src/CTemplateGenerator/CodeGeneratorCTemplate.cpp:679,719-748"]}
{"id": "C21", "title": "String builder equals concatenation", "statement": "For every sequence of appends, the string builder's content is the concatenation of the appended strings, its length is the sum of lengths, and no write ever goes outside the current buffer, whatever the lengths (below 2^32 in total).", "quantifier": "all sequences of appended strings", "why_tests_cant": "Buffer boundaries (255/256 bytes, stack-to-heap switch) for all length combinations.", "anchors": ["src/easyMockFramework/src/cstring.c:17-90"]}
{"id": "C22", "title": "String builder storage discipline", "statement": "The string stays in the inline buffer exactly while its content fits in 255 characters plus terminator; from the first append that does not fit it lives in one heap block whose size is exactly length+1, and it never goes back before being freed.", "quantifier": "all sequences of appended strings", "why_tests_cant": "Exact boundary for all append splits.", "anchors": ["src/easyMockFramework/src/cstring.c:60-90", "src/easyMockFramework/include/cstring.h"]}
{"id": "C23", "title": "String builder never leaks or double-frees", "statement": "At any time a string owns at most one heap block; freeing releases it exactly once, freeing again is harmless, and allocation failure never causes an out-of-bounds write.", "quantifier": "all operation sequences and all allocation-failure patterns", "why_tests_cant": "Crash/allocation-failure points.", "anchors": ["src/easyMockFramework/src/cstring.c:60-99"]}
{"id": "C24", "title": "String comparison is content equality with a total order", "statement": "Comparing two builder strings (or a builder string and a C string) gives 0 iff their contents are equal, and the sign is the lexicographic order of the bytes as unsigned values.", "quantifier": "all pairs of strings, any storage", "why_tests_cant": "All pairs of contents and storage classes.", "anchors": ["src/easyMockFramework/src/cstring.c:50-58"]}
{"id": "C25", "title": "Built-in matchers accept exactly equal values", "statement": "Each built-in scalar matcher returns 0 iff current and expected values are equal as values of that type, otherwise -1; it writes the message buffer only on mismatch and never more than 256 bytes including the terminator.", "quantifier": "all types, all value pairs, all parameter names of any length", "why_tests_cant": "All value pairs and all name lengths.", "anchors": ["src/easyMockFramework/src/easyMock_matcher.cpp:7-42"]}
{"id": "C26", "title": "Mismatch messages determine the values", "statement": "For integer matchers the message (when not truncated) names the parameter and determines both the received and the expected value; messages for different value pairs differ.", "quantifier": "all pairs of values of every integer width including 128-bit", "why_tests_cant": "Injectivity over all value pairs.", "anchors": ["src/easyMockFramework/src/easyMock_matcher.cpp:7-91"]}
{"id": "C27", "title": "String matcher compares contents", "statement": "cmp_str accepts exactly when both C strings have the same content, regardless of their addresses, and its message is bounded.", "quantifier": "all pairs of C strings", "why_tests_cant": "All strings.", "anchors": ["src/easyMockFramework/src/easyMock_matcher.cpp:44-56"]}
{"id": "C28", "title": "Generated struct comparator is exact", "statement": "A generated comparator returns 0 iff all compared fields (recursively, including array elements and nested structs) are equal; pointers are compared as addresses.", "quantifier": "all struct types (any nesting, arrays, unions, anonymous members, bit-fields) and all pairs of values", "why_tests_cant": "All types and values.", "anchors": ["src/easyMockGenerate/src/CTemplateGenerator/CodeGeneratorCTemplate.cpp:503-561,1713-1945,2329-2370"]}
{"id": "C29", "title": "Generated struct comparator reports a real difference", "statement": "When a generated comparator rejects, the reported field path designates a field whose two values differ and it is the first differing field in comparison order.", "quantifier": "all struct types and all pairs of values", "why_tests_cant": "All types and values.", "anchors": ["src/easyMockGenerate/src/CTemplateGenerator/CodeGeneratorCTemplate.cpp:503-561,1759-1945"]}
{"id": "C30", "title": "Every comparator called is generated once under the called name", "statement": "When comparators of all types are requested, every comparator function that generated code calls is itself generated, exactly once, under the same name.", "quantifier": "all sets of functions and all nested types", "why_tests_cant": "All type graphs and orders.", "anchors": ["src/easyMockGenerate/src/CTemplateGenerator/CodeGeneratorCTemplate.cpp:1155-1185,1759-1864,2243-2327"]}
{"id": "C31", "title": "Command line: accepted parses are complete", "statement": "If argument parsing reports neither an error nor help, an existing regular input file and an existing output directory were given, and each came from its option's argument.", "quantifier": "all argument vectors and all file systems", "why_tests_cant": "All argument vectors.", "anchors": ["src/easyMockGenerate/src/CmdLineParser/CmdLineParser.cpp"]}
{"id": "C32", "title": "Command line: round trip", "statement": "Rendering any option record to arguments and parsing it gives back that record.", "quantifier": "all option records, all file systems that contain the two paths", "why_tests_cant": "All option combinations and orders.", "anchors": ["src/easyMockGenerate/src/CmdLineParser/CmdLineParser.cpp"]}
{"id": "C33", "title": "Command line: unknown arguments are forwarded unchanged in order", "statement": "The arguments forwarded to the header parser are exactly the arguments that are not options of the tool nor values of such options, in their original order.", "quantifier": "all argument vectors accepted", "why_tests_cant": "All argument vectors.", "anchors": ["src/easyMockGenerate/src/CmdLineParser/CmdLineParser.cpp:221-224"]}
{"id": "C34", "title": "Command line: option order is irrelevant", "statement": "Permuting complete option groups does not change the resulting options apart from the relative order of forwarded arguments; repeating a set-valued or flag option changes nothing.", "quantifier": "all accepted argument vectors and permutations of their groups", "why_tests_cant": "All permutations.", "anchors": ["src/easyMockGenerate/src/CmdLineParser/CmdLineParser.cpp"]}
{"id": "C35", "title": "Command line: repeated single-value options are rejected", "statement": "Giving -i, -o or --cwd twice with a value is reported as an error.", "quantifier": "all argument vectors", "why_tests_cant": "All positions and all values, including the empty string.", "anchors": ["src/easyMockGenerate/src/CmdLineParser/CmdLineParser.cpp:40-132"]}
{"id": "C36", "title": "Relative paths follow --cwd", "statement": "Relative -i and -o paths are taken relative to the --cwd directory.", "quantifier": "all argument vectors and file systems", "why_tests_cant": "All argument orders and directory contents.", "anchors": ["src/easyMockGenerate/src/CmdLineParser/CmdLineParser.cpp:40-85", "src/easyMockGenerate/src/main.cpp:35-47", "README.md"]}
{"id": "C37", "title": "Exit status reflects success", "statement": "EasyMockGenerate exits with 0 only if both output files were written (or help was asked), and exits non-zero otherwise.", "quantifier": "all outcomes of parsing and file writing", "why_tests_cant": "All failure points.", "anchors": ["src/easyMockGenerate/src/MainCodeGenerator.cpp", "src/easyMockGenerate/src/main.cpp", "src/easyMockGenerate/src/CTemplateGenerator/CodeGeneratorCTemplate.cpp:1201-1255"]}
{"id": "C38", "title": "Type equality is an equivalence relation", "statement": "Equality of parsed types, parameters and functions is reflexive, symmetric and transitive.", "quantifier": "all types of any nesting", "why_tests_cant": "All triples of types.", "anchors": ["src/easyMockGenerate/src/TypeItf.cpp", "src/easyMockGenerate/src/*Type.cpp", "src/easyMockGenerate/src/Declarator.cpp"]}
{"id": "C39", "title": "Equal elements have equal hashes", "statement": "Two equal types/functions have equal hashes, so hash-keyed containers treat them as the same element; caching a hash never changes it.", "quantifier": "all pairs of types", "why_tests_cant": "All pairs.", "anchors": ["src/easyMockGenerate/include/HashablePointer*.h", "src/easyMockGenerate/src/*Type.cpp:getHash/isEqual"]}
{"id": "C40", "title": "Distinct elements have distinct hashes up to hash collisions", "statement": "Types or functions whose C declarations differ are only identified by hash-keyed containers if the underlying hash function collides.", "quantifier": "all pairs of types and functions", "why_tests_cant": "All pairs.", "anchors": ["src/easyMockGenerate/src/Function.cpp:getRawHash", "src/easyMockGenerate/src/TypedefType.cpp:getRawHash"]}
{"id": "C41", "title": "Type normalisation terminates and reaches a fixed point", "statement": "Stripping qualifiers, typedefs, pointers and references terminates on every type and yields a type that has none of them left.", "quantifier": "all types of any nesting", "why_tests_cant": "All nestings.", "anchors": ["src/easyMockGenerate/src/TypeItf.cpp:unqualify/getMostPointedType", "src/easyMockGenerate/src/CTemplateGenerator/CodeGeneratorCTemplate.cpp:972-1118,2482-2490"]}
{"id": "C42", "title": "Signedness conversion is consistent", "statement": "Setting the signedness of a basic type round-trips, preserves width, and the accessors agree with the type's textual declaration.", "quantifier": "all basic types", "why_tests_cant": "Whole table plus composition.", "anchors": ["src/easyMockGenerate/src/EasyMock_CType.cpp"]}
{"id": "C43", "title": "Enum generation preserves every enumerator", "statement": "Every enumerator of a parsed enum reappears in the generated declaration with its value.", "quantifier": "all enumerations", "why_tests_cant": "All enumerator lists (duplicates, negatives, 64-bit values).", "anchors": ["src/easyMockGenerate/src/Enum.cpp", "src/easyMockGenerate/src/CTemplateGenerator/CodeGeneratorCTemplate.cpp:2541-2583"]}
{"id": "C44", "title": "Exactly the requested functions are mocked", "statement": "The set of mocked functions is exactly the set of functions allowed by --mock-only, --ignore-generation-of, --generate-included-functions, and the inline/static/variadic rules.", "quantifier": "all function sets and option combinations", "why_tests_cant": "All combinations.", "anchors": ["src/easyMockGenerate/src/CTemplateGenerator/CodeGeneratorCTemplate.cpp:1300-1371", "src/easyMockGenerate/src/LLVMParser/LLVMParser.cpp:getFunctionDeclaration"]}
{"id": "C45", "title": "No function is mocked twice and none is lost", "statement": "Every distinct selected function is generated exactly once.", "quantifier": "all function lists", "why_tests_cant": "All lists with re-declarations, overloads, namespaces.", "anchors": ["src/easyMockGenerate/src/CTemplateGenerator/CodeGeneratorCTemplate.cpp:1300-1371", "src/easyMockGenerate/src/Function.cpp"]}
{"id": "C46", "title": "Output-parameter selection", "statement": "An output buffer argument is offered for a parameter iff it is a pointer to non-const, non-function data; a size argument accompanies it iff the pointee's size is unknown (void or incomplete).", "quantifier": "all parameter types", "why_tests_cant": "All type nestings.", "anchors": ["src/easyMockGenerate/src/CTemplateGenerator/CodeGeneratorCTemplate.cpp:1643-1672"]}
{"id": "C47", "title": "Generated parameter names are distinct", "statement": "Within every generated function all parameter names are distinct, unnamed ones included.", "quantifier": "all parameter lists and all orders of generation", "why_tests_cant": "All parameter lists.", "anchors": ["src/easyMockGenerate/src/CTemplateGenerator/CodeGeneratorCTemplate.cpp:1562-1674"]}
{"id": "C48", "title": "Generated file names and guards are consistent", "statement": "The generated implementation includes the header that was generated with it, and headers with different names have different include guards.", "quantifier": "all input file names", "why_tests_cant": "All file names.", "anchors": ["src/easyMockGenerate/src/CTemplateGenerator/CodeGeneratorCTemplate.cpp:1201-1255,1300-1371"]}
{"id": "C49", "title": "Generated parameter lists are well-formed", "statement": "Every generated ExpectAndReturn / ExpectReturnAndOutput prototype and mock prototype is a comma-separated list with no empty entry.", "quantifier": "all functions, any number of parameters, C and C++ members", "why_tests_cant": "All parameter counts.", "anchors": ["src/easyMockGenerate/src/CTemplateGenerator/CodeGeneratorCTemplate.cpp:296-455,701-748"]}
{"id": "C50", "title": "Macro table follows preprocessor semantics", "statement": "The macros known when generation starts are exactly those defined and not undefined at the end of the header, with their definitions.", "quantifier": "all sequences of #define and #undef", "why_tests_cant": "All sequences.", "anchors": ["src/easyMockGenerate/src/ElementToMockContext.cpp", "src/easyMockGenerate/src/LLVMParser/LLVMParser.cpp:MacroBrowser", "src/easyMockGenerate/src/CTemplateGenerator/CodeGeneratorCTemplate.cpp:1257-1298"]}
{"id": "C51", "title": "Comment removal preserves code", "statement": "Removing comments from a declaration text keeps all the text outside comments.", "quantifier": "all texts", "why_tests_cant": "All texts.", "anchors": ["src/easyMockGenerate/src/LLVMParser/LLVMParser.cpp:removeComments"]}
{"id": "C52", "title": "Attribute argument splitting", "statement": "The arguments of a function attribute are recovered exactly: joining them with commas gives back the source text up to surrounding blanks.", "quantifier": "all attribute texts", "why_tests_cant": "All texts.", "anchors": ["src/easyMockGenerate/src/LLVMParser/LLVMParser.cpp:trim/getFunAttrParamList"]}
{"id": "C53", "title": "Type caches never confuse types", "statement": "Two different composite types never share a cache entry, so each parameter keeps its own type.", "quantifier": "all pairs of type names and typedef names", "why_tests_cant": "All name pairs.", "anchors": ["src/easyMockGenerate/src/LLVMParser/LLVMParser.cpp:getFromContainerType"]}
{"id": "C54", "title": "Types are emitted once and before use", "statement": "With --generate-types each used composite type is emitted at most once and before any declaration that needs it complete.", "quantifier": "all acyclic type graphs", "why_tests_cant": "All type graphs and traversal orders.", "anchors": ["src/easyMockGenerate/src/CTemplateGenerator/CodeGeneratorCTemplate.cpp:1947-2243,2472-2481"]}
{"id": "C55", "title": "Member calls on the wrong instance are reported", "statement": "For a mocked C++ member function, an error is reported iff the expectation names an instance and the call is made on a different one; a null expected instance accepts any.", "quantifier": "all histories and instances", "why_tests_cant": "All instances and histories.", "anchors": ["src/easyMockGenerate/src/CTemplateGenerator/CodeGeneratorCTemplate.cpp:637-644"]}
{"id": "C56", "title": "Type predicates answer for exactly one kind", "statement": "isComposableType, isEnum, isPointer, isReference, isFunctionType, isConst and isTypeDef hold exactly for the corresponding kind of type, never for a forward reference; isAnonymous holds exactly for composite types and enums without a name.", "quantifier": "all types", "why_tests_cant": "All type trees; the flags are copied between objects.", "anchors": ["src/easyMockGenerate/src/TypeItf.cpp:100-330", "src/easyMockGenerate/src/IncompleteType.cpp:5-18"]}
{"id": "C57", "title": "Declaration texts denote the type", "statement": "The declaration text produced for a type reads back as that type (order of pointers, references and const around the name), and the prototype text by which methods are compared reflects every part of the declaration.", "quantifier": "all types whose names are identifiers; all functions", "why_tests_cant": "All nestings of pointer, reference, const, typedef.", "anchors": ["src/easyMockGenerate/src/TypeItf.cpp:374-391", "src/easyMockGenerate/src/Pointer.cpp:79-82", "src/easyMockGenerate/src/QualifiedType.cpp:85-88", "src/easyMockGenerate/src/Function.cpp:237-309"]}
{"id": "C58", "title": "Exactly the requested comparators are generated", "statement": "A comparator is generated only if it was requested (by EasyMock_all_comparators or by the name of its type), and the comparator of every requested parameter type is generated.", "quantifier": "all request lists, all sequences of parameter types and typedefs", "why_tests_cant": "All type graphs and request lists.", "anchors": ["src/easyMockGenerate/src/CTemplateGenerator/CodeGeneratorCTemplate.cpp:2243-2268", "src/easyMockGenerate/src/CTemplateGenerator/CodeGeneratorCTemplate.cpp:1578-1587"]}
{"id": "C59", "title": "Names in the generated mock denote what was meant", "statement": "In the mock of a function the name of each of its parameters denotes that parameter (not a local variable of the mock), and the file-scope names the mock relies on are not captured by parameters.", "quantifier": "all functions, all parameter names", "why_tests_cant": "All choices of parameter names.", "anchors": ["src/easyMockGenerate/src/CTemplateGenerator/CodeGeneratorCTemplate.cpp:609-696"]}
{"id": "C60", "title": "Expect functions forward every argument in its position", "statement": "ExpectAndReturn and ExpectReturnAndOutput call the common function with their own arguments in the order of its parameters; where no output is asked for a null pointer (and size 0) is passed.", "quantifier": "all functions", "why_tests_cant": "All parameter lists.", "anchors": ["src/easyMockGenerate/src/CTemplateGenerator/CodeGeneratorCTemplate.cpp:381-455", "src/easyMockGenerate/src/CTemplateGenerator/CodeGeneratorCTemplate.cpp:701-748"]}
{"id": "C61", "title": "The generated file defines no name twice", "statement": "The file-scope names generated for the functions of a header are pairwise distinct, within one function and across functions.", "quantifier": "all sets of functions with distinct names", "why_tests_cant": "All pairs of names.", "anchors": ["src/easyMockGenerate/src/CTemplateGenerator/CodeGeneratorCTemplate.cpp:564-616", "src/easyMockGenerate/src/CTemplateGenerator/CodeGeneratorCTemplate.cpp:701-748"]}
{"id": "C62", "title": "Names inside the Expect functions and the stored data are distinct", "statement": "The parameters of each Expect function, and the members of the structure which stores a call, have pairwise distinct names.", "quantifier": "all functions", "why_tests_cant": "All parameter names.", "anchors": ["src/easyMockGenerate/src/CTemplateGenerator/CodeGeneratorCTemplate.cpp:296-455", "src/easyMockGenerate/src/CTemplateGenerator/CodeGeneratorCTemplate.cpp:564-596"]}
{"id": "C63", "title": "The signature of the mock is re-emitted faithfully", "statement": "The mock carries exactly those attributes of the function that were requested with --generate-attribute, in their order, followed by its signature; and the text can be registered as the name of the function in a C string literal.", "quantifier": "all functions and attribute lists", "why_tests_cant": "All attribute lists and names.", "anchors": ["src/easyMockGenerate/src/CTemplateGenerator/CodeGeneratorCTemplate.cpp:318-360", "src/easyMockGenerate/src/CTemplateGenerator/CodeGeneratorCTemplate.cpp:1373-1396", "src/easyMockGenerate/src/CTemplateGenerator/CodeGeneratorCTemplate.cpp:760-765"]}
{"id": "C64", "title": "Function-pointer parameters are redeclared faithfully", "statement": "A parameter that is a pointer to a function is written as result (*name)(parameters) with all parameters of the pointed function.", "quantifier": "all pointers to functions", "why_tests_cant": "All nestings.", "anchors": ["src/easyMockGenerate/src/CTemplateGenerator/CodeGeneratorCTemplate.cpp:1538-1560", "src/easyMockGenerate/src/CTemplateGenerator/CodeGeneratorCTemplate.cpp:941-952"]}
{"id": "C65", "title": "A value to return can be given exactly for functions returning one", "statement": "The Expect functions take a value to return iff the function does not return void.", "quantifier": "all return types", "why_tests_cant": "All return types.", "anchors": ["src/easyMockGenerate/src/CTemplateGenerator/CodeGeneratorCTemplate.cpp:1490-1512"]}
{"id": "C66", "title": "The Expect functions record every argument in its place", "statement": "ExpectReturnAndOutput (and ExpectAndReturn, with no outputs) initialises every member of the record it hands to the framework, each member with the argument meant for it: value and matcher of each parameter, result, output buffers and sizes.", "quantifier": "all functions that are no class members, all argument values", "why_tests_cant": "All numbers and names of parameters and all values.", "anchors": ["src/easyMockGenerate/src/CTemplateGenerator/CodeGeneratorCTemplate.cpp:564-596", "src/easyMockGenerate/src/CTemplateGenerator/CodeGeneratorCTemplate.cpp:701-748"]}
{"id": "C67", "title": "The generated mock serves the k-th call from the k-th record", "statement": "The statements of the generated mock, names resolved by the rules of the language, apply the matcher of each parameter to the argument and expected value of that parameter, return the recorded result and copy each recorded output to the pointer passed for it; an unexpected call is reported and returns zeros.", "quantifier": "all functions that are no class members, all reachable states, all calls", "why_tests_cant": "All numbers and names of parameters, all histories.", "anchors": ["src/easyMockGenerate/src/CTemplateGenerator/CodeGeneratorCTemplate.cpp:609-696"]}
{"id": "C68", "title": "The header offers exactly the Expect functions a user can call", "statement": "For each mocked function the header declares ExpectAndReturn, and ExpectReturnAndOutput exactly if a parameter is an output, with the documented parameters; in C each of these is defined in the source.", "quantifier": "all functions that are no class members", "why_tests_cant": "All parameter lists.", "anchors": ["src/easyMockGenerate/src/CTemplateGenerator/CodeGeneratorCTemplate.cpp:366-394", "src/easyMockGenerate/src/CTemplateGenerator/CodeGeneratorCTemplate.cpp:892-911"]}
{"id": "C69", "title": "Members keep the type they were declared with", "statement": "The type text recorded for a member of a composite type (and printed when the type is redeclared) is the text of its type in the declaration, whatever declarators, array sizes or bodies follow.", "quantifier": "all declarations of members", "why_tests_cant": "All texts.", "anchors": ["src/easyMockGenerate/src/LLVMParser/LLVMParser.cpp:543-588", "src/easyMockGenerate/src/CTemplateGenerator/CodeGeneratorCTemplate.cpp:2199-2200"]}
{"id": "C70", "title": "The printed return type is the declared one", "statement": "The text recorded as return type of a function consists of exactly the words before the function's name that are neither storage classes nor macros standing for nothing or for an attribute, in their order.", "quantifier": "all declarations of functions, all macro environments", "why_tests_cant": "All texts and sets of macros.", "anchors": ["src/easyMockGenerate/src/LLVMParser/LLVMParser.cpp:402-466", "src/easyMockGenerate/src/LLVMParser/LLVMParser.cpp:351-369", "src/easyMockGenerate/src/LLVMParser/LLVMParser.cpp:1088-1095"]}
{"id": "C71", "title": "Recursive types are parsed to the end", "statement": "The parser returns a type for every parameter and return value, also when records refer to themselves or to each other; what it returns is determined by the program.", "quantifier": "all finite programs", "why_tests_cant": "All graphs of types.", "anchors": ["src/easyMockGenerate/src/LLVMParser/LLVMParser.cpp:590-649", "src/easyMockGenerate/src/LLVMParser/LLVMParser.cpp:798-946"]}
{"id": "C72", "title": "The members of a record are known where an object of it is needed", "statement": "In the description of a parameter, member or array element that is a record (and no pointer to one), the record is described with all its members and not only by its tag.", "quantifier": "all programs, all orders of parameters", "why_tests_cant": "All graphs of types and all orders in which they are met.", "anchors": ["src/easyMockGenerate/src/LLVMParser/LLVMParser.cpp:798-946"]}
{"id": "C73", "title": "Builtin types keep their spelling", "statement": "A parameter of a builtin type is declared in the mock with that builtin type, with its signedness and const.", "quantifier": "all builtin types, both kinds of plain char", "why_tests_cant": "Only some of the types have tests, and only for the platform the tests run on.", "anchors": ["src/easyMockGenerate/src/LLVMParser/LLVMParser.cpp:651-726", "src/easyMockGenerate/src/EasyMock_CType.cpp:updateCType"]}
{"id": "C74", "title": "A function is mocked in its own namespace", "statement": "The namespaces recorded for a function, and opened around its mock, are the namespaces around its declaration.", "quantifier": "all nestings of namespaces", "why_tests_cant": "All programs.", "anchors": ["src/easyMockGenerate/src/LLVMParser/LLVMParser.cpp:468-487", "src/easyMockGenerate/src/CTemplateGenerator/CodeGeneratorCTemplate.cpp:1402-1431"]}
{"id": "C75", "title": "The mock is declared with the requested attributes of the function", "statement": "The attributes written before the mock are the attributes of the declaration whose names were requested, with their arguments as the user wrote them and in their order.", "quantifier": "all lists of attributes, all texts of arguments, all requests", "why_tests_cant": "All attributes and combinations of them.", "anchors": ["src/easyMockGenerate/src/LLVMParser/LLVMParser.cpp:243-349", "src/easyMockGenerate/src/CTemplateGenerator/CodeGeneratorCTemplate.cpp:318-327", "src/easyMockGenerate/src/CTemplateGenerator/CodeGeneratorCTemplate.cpp:1373-1396"]}
{"id": "C76", "title": "The mock is declared with the types of the function", "statement": "The declaration of the mock in the generated file, read as a C declaration, declares the name of the function with the parameters of the function in their order, each of its type, with the same result, variadic exactly if the function is.", "quantifier": "all translation units, all functions in them, all nestings of pointers, qualifiers, functions, typedefs and records in their types", "why_tests_cant": "The declaration is assembled from texts made in three places (source text of the result, prefixes of types, extra text behind names of function pointers); tests cover some types.", "anchors": ["src/easyMockGenerate/src/LLVMParser/LLVMParser.cpp:140-213", "src/easyMockGenerate/src/LLVMParser/LLVMParser.cpp:405-466", "src/easyMockGenerate/src/LLVMParser/LLVMParser.cpp:488-524", "src/easyMockGenerate/src/CTemplateGenerator/CodeGeneratorCTemplate.cpp:1398-1536"]}
{"id": "C77", "title": "A process made of generated files behaves as the framework describes", "statement": "Whatever a test does with the functions of its generated files (expecting, calling, initialising, verifying, loading and unloading files, setting the options), it observes what the framework's rules say for the functions of all the files: loading a file registers its mocks, initialising resets every mock of every loaded file, and the verification succeeds exactly if nothing was reported and every function of every loaded file was called as often as expected.", "quantifier": "all sets of generated files, all histories", "why_tests_cant": "All numbers of files and functions, all orders of operations; the tests generate one file at a time.", "anchors": ["src/easyMockGenerate/src/CTemplateGenerator/CodeGeneratorCTemplate.cpp:597-600", "src/easyMockGenerate/src/CTemplateGenerator/CodeGeneratorCTemplate.cpp:749-791", "src/easyMockFramework/src/easyMock.cpp:54-83", "src/easyMockFramework/src/easyMock.cpp:195-216"]}
{"id": "C78", "title": "A test that includes generated headers sees every Expect function once, in its place", "statement": "A test that includes any sequence of generated headers, some of them several times, in C or in C++, can read them, and every function of them that is offered by the headers (comparators, ExpectAndReturn, ExpectReturnAndOutput, and the mocked function itself when the header repeats the types) is declared exactly once: in C by its prefixed name with C linkage, in C++ in EasyMock, the namespaces of the function, its class and its name.", "quantifier": "all headers, all sequences of them, both languages, all macros defined before", "why_tests_cant": "The declarations are spread over conditional sections, namespaces and guards of several templates; all names and combinations of options.", "anchors": ["src/easyMockGenerate/src/CTemplateGenerator/CodeGeneratorCTemplate.cpp:796-919", "src/easyMockGenerate/src/CTemplateGenerator/CodeGeneratorCTemplate.cpp:213-229", "src/easyMockGenerate/src/CTemplateGenerator/CodeGeneratorCTemplate.cpp:1308-1311"]}
{"id": "C79", "title": "The generated source defines what its header declares, with the bodies that are interpreted", "statement": "A compiler that reads the generated source finds a definition for every function the generated header declares, in the same scopes and with the same words, each once, and offers nothing else to other files; the bodies of the mock, of the Expect functions, of the comparators and of the functions of the file consist of the statements (and the data structures of the members) that the rules about calls, expectations, comparisons and processes are proved for.", "quantifier": "all files, comparators and functions, both languages", "why_tests_cant": "Text of one template is used to call functions declared by another template; a semicolon, brace or name that is wrong for one kind of parameter, result or field shows only for that combination.", "anchors": ["src/easyMockGenerate/src/CTemplateGenerator/CodeGeneratorCTemplate.cpp:462-791", "src/easyMockGenerate/src/CTemplateGenerator/CodeGeneratorCTemplate.cpp:213-455", "src/easyMockGenerate/src/CTemplateGenerator/CodeGeneratorCTemplate.cpp:1398-1674", "src/easyMockGenerate/src/CTemplateGenerator/CodeGeneratorCTemplate.cpp:503-561", "src/easyMockGenerate/src/CTemplateGenerator/CodeGeneratorCTemplate.cpp:1746-1945"]}
{"id": "C80", "title": "Expected calls are stored with the types of the function", "statement": "The data structure in which a generated source stores an expected call has, for each parameter, a member of the type of the parameter (without its own const) and a matcher, a member of the type of the result, and for each output a pointer of the type of its parameter with its size where it is not known; the default result of the mock has the type of the result.", "quantifier": "all functions, all nestings of pointers, qualifiers, functions, typedefs and records in their types", "why_tests_cant": "The texts of the members are made in other places than those of the declaration; a wrong type still compiles in C for many functions and then copies too few bytes.", "anchors": ["src/easyMockGenerate/src/CTemplateGenerator/CodeGeneratorCTemplate.cpp:1473-1511", "src/easyMockGenerate/src/CTemplateGenerator/CodeGeneratorCTemplate.cpp:1576-1613", "src/easyMockGenerate/src/CTemplateGenerator/CodeGeneratorCTemplate.cpp:2421-2470", "src/easyMockGenerate/src/CTemplateGenerator/CodeGeneratorCTemplate.cpp:462-561"]}
{"id": "C81", "title": "Tests set expectations with the types of the function", "statement": "The Expect functions declared in a generated header take, read as C declarations, the parameters of the function in their order and of their types, the value to return of the type of the result unless there is none, a matcher for each parameter, and the variant with outputs, offered exactly if there is an output, takes in addition for each output a pointer of the type of its parameter, followed by a size where it is not known.", "quantifier": "all translation units, all functions in them, all nestings of types", "why_tests_cant": "The lists are assembled from texts and separators of several sections; tests cover some types.", "anchors": ["src/easyMockGenerate/src/CTemplateGenerator/CodeGeneratorCTemplate.cpp:796-919", "src/easyMockGenerate/src/CTemplateGenerator/CodeGeneratorCTemplate.cpp:1398-1536", "src/easyMockGenerate/src/CTemplateGenerator/CodeGeneratorCTemplate.cpp:1570-1674"]}
{"id": "C82", "title": "A member function is mocked as a member of its class", "statement": "The mock of a member function is defined as a member of the class the function is declared in, whatever else the header declares and in whatever order, so that a program that calls the member function is linked with the mock.", "quantifier": "all translation units, all orders of functions, all classes, structures and unions", "why_tests_cant": "The class is known to a function through a weak pointer; whether it is still there when the code is generated depends on the other functions of the file and on a list from which objects with equal hashes are left out; the tests have one class each.", "anchors": ["src/easyMockGenerate/src/LLVMParser/LLVMParser.cpp:40-62", "src/easyMockGenerate/src/LLVMParser/LLVMParser.cpp:79-87", "src/easyMockGenerate/src/LLVMParser/LLVMParser.cpp:165-205", "src/easyMockGenerate/src/LLVMParser/LLVMParser.cpp:866-878", "src/easyMockGenerate/src/Function.cpp:148-156"]}
{"id": "C83", "title": "References are compared with what the test named", "statement": "The mock of a function with reference parameters serves its calls by the expectations in their order; the matchers of an expectation are given the object the argument of the call refers to and the object the test named, with the value it had when the expectation was registered; failures are reported, and the process otherwise behaves as for functions without references.", "quantifier": "all functions with references, all histories of a process, all contents of memory", "why_tests_cant": "All histories in which variables change between the registration of an expectation and the call; what is compared is decided by the lifetime and content of objects outside the mock.", "anchors": ["src/easyMockGenerate/src/CTemplateGenerator/CodeGeneratorCTemplate.cpp:285-287", "src/easyMockGenerate/src/CTemplateGenerator/CodeGeneratorCTemplate.cpp:571-588", "src/easyMockGenerate/src/CTemplateGenerator/CodeGeneratorCTemplate.cpp:661-674", "src/easyMockGenerate/src/CTemplateGenerator/CodeGeneratorCTemplate.cpp:719-745", "src/easyMockGenerate/src/CTemplateGenerator/CodeGeneratorCTemplate.cpp:1580-1598"]}
{"id": "C84", "title": "A mock returns the reference it was given, and refers to zeros without an expectation", "statement": "The mock of a function which returns a reference returns exactly the reference given with the expectation that serves the call; a call without an expectation is reported and returns a reference to an object of zeros.", "quantifier": "all functions which return a reference, all histories", "why_tests_cant": "What an unexpected call refers to depends on everything the code under test did with earlier results.", "anchors": ["src/easyMockGenerate/src/CTemplateGenerator/CodeGeneratorCTemplate.cpp:597-617", "src/easyMockGenerate/src/CTemplateGenerator/CodeGeneratorCTemplate.cpp:677", "src/easyMockGenerate/src/CTemplateGenerator/CodeGeneratorCTemplate.cpp:1503-1510"]}
{"id": "C85", "title": "From the declarations of a program to the generated files", "statement": "For the functions of a translation unit, the generated header is accepted by C and C++ compilers and declares exactly the Expect functions of these functions, in their order, and the generated source is accepted and defines exactly the mocks and these Expect functions, each with the types that the parameters and the result have in the program; outputs are taken for exactly the parameters which C46 names.", "quantifier": "all translation units, all functions in them, all nestings of types, all file names", "why_tests_cant": "Parser, type objects, dictionaries and templates each have their own tests on single functions; whether the text of a whole file says what the program declares depends on all of them.", "anchors": ["src/easyMockGenerate/src/LLVMParser/LLVMParser.cpp:866-1034", "src/easyMockGenerate/src/CTemplateGenerator/CodeGeneratorCTemplate.cpp:213-455", "src/easyMockGenerate/src/CTemplateGenerator/CodeGeneratorCTemplate.cpp:462-919", "src/easyMockGenerate/src/CTemplateGenerator/CodeGeneratorCTemplate.cpp:1265-1400", "src/easyMockGenerate/src/CTemplateGenerator/CodeGeneratorCTemplate.cpp:1562-1674"]}
{"id": "C86", "title": "A comparator looks at the objects as the type whose members it compares", "statement": "Every generated comparator belongs to one structure, union or class of the parameters of the mocked functions: it converts its two arguments to pointers to this type, named by a typedef, its tag or the text generated for types without tag, compares all of its members in their order, those of anonymous members included, and calls it what it is in its messages; the name of the comparator is made of the name of the type.", "quantifier": "all translation units, all types of parameters, all typedefs, all nestings of structures and unions", "why_tests_cant": "The typedef under which a type is known is looked up by a hash filled in by the types met before; only with every order of parameters and every nesting can one tell that a name belongs to the type.", "anchors": ["src/easyMockGenerate/src/CTemplateGenerator/CodeGeneratorCTemplate.cpp:503-561", "src/easyMockGenerate/src/CTemplateGenerator/CodeGeneratorCTemplate.cpp:1713-1945", "src/easyMockGenerate/src/CTemplateGenerator/CodeGeneratorCTemplate.cpp:2243-2370"]}
{"id": "C87", "title": "The call stack in an error shows the active calls, innermost first", "statement": "With call stacks switched on, an error message is followed by one line per active call, from the innermost one outwards, with the function, the file without its directory and the line of the call; where the debug information ends, the reason is shown and nothing further; reporting an error never ends the process nor is it undefined behaviour. With call stacks switched off an error is its message.", "quantifier": "all call stacks, all answers of the unwinder and of the debug information, all histories of a process", "why_tests_cant": "The text depends on what libunwind and libdwfl answer for the test binary; the tests compare messages with call stacks switched off.", "anchors": ["src/easyMockFramework/src/easyMock.cpp:85-93", "src/easyMockFramework/src/easyMock.cpp:235-361"]}
{"id": "C88", "title": "With generated types, the header declares the types of the functions, and what the declarations say is true of them", "statement": "With --generate-types, a compiler which reads the generated header instead of the mocked one finds a declaration for every structure, union, enumeration and typedef that is used: the text of each is one complete declaration which gives the name the type it has in the program, with all members in their order, their types, array bounds and bit widths, and all values of enumerations; declarations whose guard is defined already are skipped, the macros of the configuration are defined, nothing of the mocked header is included, and the functions declared behind are those the generated source defines, with their types of the program.", "quantifier": "all translation units, all types of parameters and results, all nestings of types, all macros defined before", "why_tests_cant": "The text is put together of a dozen pieces (prefixes, names made for anonymous types, array bounds, parameter lists of callbacks); whether it declares the type depends on the whole nesting, and a test compiles only the types it uses.", "anchors": ["src/easyMockGenerate/src/CTemplateGenerator/CodeGeneratorCTemplate.cpp:834-889", "src/easyMockGenerate/src/CTemplateGenerator/CodeGeneratorCTemplate.cpp:921-939", "src/easyMockGenerate/src/CTemplateGenerator/CodeGeneratorCTemplate.cpp:2077-2241", "src/easyMockGenerate/src/CTemplateGenerator/CodeGeneratorCTemplate.cpp:2437-2470", "src/easyMockGenerate/src/CTemplateGenerator/CodeGeneratorCTemplate.cpp:2491-2583"]}
{"id": "C89", "title": "A run replaces exactly the two files of its header", "statement": "When the generator reports success, the generated source and the generated header are in the output directory with the complete texts, and no other file has changed; a build which mocks many headers one after the other leaves the files of every one of them; a failing run touches no other file.", "quantifier": "all contents of the disk, all sequences of runs, all failures of opening, writing and closing", "why_tests_cant": "Failures of the disk and all sequences of runs cannot be tried out; the tests mock one header into an empty directory.", "anchors": ["src/easyMockGenerate/src/CTemplateGenerator/CodeGeneratorCTemplate.cpp:1237-1254", "src/easyMockGenerate/src/CTemplateGenerator/CodeGeneratorCTemplate.cpp:2372-2419"]}
{"id": "C90", "title": "The header is parsed with the include directories of the user, then those of the compiler", "statement": "Clang gets the unknown arguments of the command line, unchanged and in order, followed by one -I for each implicit include directory of the compiler; it searches the directories of the user first and all directories of the compiler.", "quantifier": "all command lines, all lists of implicit include directories", "why_tests_cant": "The list of implicit directories is fixed when the tool is built; the tests see one list.", "anchors": ["src/easyMockGenerate/src/LLVMParser/LLVMParser.cpp:1283-1318"]}
{"id": "C91", "title": "The type a comparator declares for a type without name has the members of that type", "statement": "A structure or union without a name that is declared inside another type cannot be named by the generated source; its comparator declares a type of its own, converts its arguments to pointers to it, and this type has the members of the compared type: the same names, types, array bounds and bit widths, in the same order, with the structures and unions inside declared in place; a compiler accepts the declaration; no other comparator declares a type.", "quantifier": "all nestings of structures and unions, all types of members", "why_tests_cant": "The comparator reads the objects through a type which no header declares; a test that compares one nested structure cannot show that every nesting has the same members, and a wrong one reads other bytes.", "anchors": ["src/easyMockGenerate/src/CTemplateGenerator/CodeGeneratorCTemplate.cpp:511-513", "src/easyMockGenerate/src/CTemplateGenerator/CodeGeneratorCTemplate.cpp:921-939", "src/easyMockGenerate/src/CTemplateGenerator/CodeGeneratorCTemplate.cpp:2119-2241", "src/easyMockGenerate/src/CTemplateGenerator/CodeGeneratorCTemplate.cpp:2287-2322"]}
{"id": "C92", "title": "With generated types, the macros of the generated header are those of the mocked header", "statement": "With --generate-types, where the generated header is included instead of the mocked one: a name which was already defined keeps its definition; every other name is defined exactly if it is at the end of the mocked header, as an object-like or a function-like macro as there, with the same parameters and the same replacement tokens.", "quantifier": "all headers (sequences of definitions and undefinitions), all replacement lists and parameter lists, all macros defined before, every order of the table, C and C++", "why_tests_cant": "The replacement is put together from texts of tokens: whether the preprocessor reads the same tokens back depends on every kind of token and on every neighbour; the tests look at a few macros.", "anchors": ["src/easyMockGenerate/src/LLVMParser/LLVMParser.cpp:1143-1224", "src/easyMockGenerate/src/CTemplateGenerator/CodeGeneratorCTemplate.cpp:843-851", "src/easyMockGenerate/src/CTemplateGenerator/CodeGeneratorCTemplate.cpp:1257-1298"]}
{"id": "C93", "title": "With generated types, text copied from the mocked header is expanded as there", "statement": "The type of a member is written as its source text, with the names of macros. Behind the macros of the generated header, a piece of text of the mocked header is expanded to the same tokens as at its place in the mocked header.", "quantifier": "all headers, all pieces of text, all macros (object-like and function-like, nested and recursive), all macros defined before", "why_tests_cant": "The macros of a header are written before all types, with their last definitions; whether a text still means the same depends on every macro it mentions, directly or through others.", "anchors": ["src/easyMockGenerate/src/LLVMParser/LLVMParser.cpp:543-588", "src/easyMockGenerate/src/LLVMParser/LLVMParser.cpp:1143-1224", "src/easyMockGenerate/src/CTemplateGenerator/CodeGeneratorCTemplate.cpp:834-889", "src/easyMockGenerate/src/CTemplateGenerator/CodeGeneratorCTemplate.cpp:2199-2200"]}
{"id": "C94", "title": "With generated types, every structure and union has the members of the mocked header", "statement": "With --generate-types each structure or union used by a mocked function is defined in the generated header as in the mocked one: the same keyword and tag, and the same members in the same order, each with its name, type, array bounds and bit-field width; members whose type is declared in place are declared in place with its members. So objects have the same layout in the test and in the code that was compiled with the mocked header.", "quantifier": "all programs that the parser accepts, all records, all nestings", "why_tests_cant": "The text is assembled from source text, from types and from array sizes by different functions of the parser and of the generator; a member with another type or bound compiles, and shows only as a corrupted object when a test links against code that uses the real header.", "anchors": ["src/easyMockGenerate/src/LLVMParser/LLVMParser.cpp:543-588", "src/easyMockGenerate/src/LLVMParser/LLVMParser.cpp:889-925", "src/easyMockGenerate/src/LLVMParser/LLVMParser.cpp:1062-1081", "src/easyMockGenerate/src/CTemplateGenerator/CodeGeneratorCTemplate.cpp:921-939"]}
{"id": "C95", "title": "Comparators compare objects as the mocked header declares them", "statement": "For a parameter that is, or points to, an object of a structure or union of the mocked header, the generated comparator returns 0 exactly if the two objects are equal: all members of the declaration in the header, with arrays element by element, nested and unnamed members, unions and bit-fields, except the members of types named by --ignore-field-generation-of. Otherwise its message names a member, reached from the parameter, with two different values.", "quantifier": "all programs that the parser accepts, all records, all pairs of objects, all orders of generation", "why_tests_cant": "Equality is a statement about the header; the parser, the registry of typedefs and the generator of comparators each keep their own picture of it, and a member lost in any of them makes two different objects equal, which no passing test shows.", "anchors": ["src/easyMockGenerate/src/LLVMParser/LLVMParser.cpp:889-925", "src/easyMockGenerate/src/LLVMParser/LLVMParser.cpp:1062-1072", "src/easyMockGenerate/src/CTemplateGenerator/CodeGeneratorCTemplate.cpp:1759-1864", "src/easyMockGenerate/src/CTemplateGenerator/CodeGeneratorCTemplate.cpp:2243-2370", "src/easyMockGenerate/src/CTemplateGenerator/CodeGeneratorCTemplate.cpp:503-559"]}
{"id": "C96", "title": "A call with structures is accepted exactly if the structures are equal", "statement": "When a call of a mock is served by an expectation whose matchers are the generated cmp_<type> and cmp_deref_ptr_<type>, the call adds no argument error exactly if every compared parameter is, or points to, an object equal to the expected one: equal as the mocked header declares the type, and with the contents both objects have when the call is made. Every argument error names a member reached from that parameter and its two values.", "quantifier": "all programs that the parser accepts, all histories of expectations and calls, all layouts of objects in memory, all contents of memory", "why_tests_cant": "The verdict of a test passes through the parser, the generator of comparators, the recorded expectation and the body of the mock; the tests compare a few structures with fixed contents.", "anchors": ["src/easyMockGenerate/src/CTemplateGenerator/CodeGeneratorCTemplate.cpp:503-559", "src/easyMockGenerate/src/CTemplateGenerator/CodeGeneratorCTemplate.cpp:646-676", "src/easyMockGenerate/src/CTemplateGenerator/CodeGeneratorCTemplate.cpp:2243-2370", "src/easyMockGenerate/src/LLVMParser/LLVMParser.cpp:889-925"]}
{"id": "C97", "title": "The error message of a comparator is printed with formats that fit the members", "statement": "When two structures differ in a member that is not itself a structure, the generated comparator prints the message with a format whose conversions fit the promoted types of its arguments (otherwise printing is undefined behaviour), and the text names the parameter, the member, its index in an array, and shows the two values as numbers, characters or addresses. Different numbers, characters and addresses are shown as different texts.", "quantifier": "all programs that the parser accepts, all members of all records, all values, all names of parameters, all indices", "why_tests_cant": "A conversion that does not fit its argument is undefined behaviour which often prints something plausible; it depends on the type of every member and on the value, and the tests show a few int members.", "anchors": ["src/easyMockGenerate/src/CTemplateGenerator/CodeGeneratorCTemplate.cpp:273-277", "src/easyMockGenerate/src/CTemplateGenerator/CodeGeneratorCTemplate.cpp:503-559", "src/easyMockGenerate/src/CTemplateGenerator/CodeGeneratorCTemplate.cpp:1866-1945", "src/easyMockGenerate/src/EasyMockGenerateTypes.cpp:29-49"]}
{"id": "C98", "title": "A comparator reads only the two objects, and reports a pointer that leads nowhere", "statement": "A generated comparator reads nothing but the members of the two objects it compares. When the code under test passes a null pointer where the test expects an object (or the test expects a null pointer), the mock reports an argument error or accepts the call; it does not crash the test.", "quantifier": "all programs that the parser accepts, all contents of memory, all addresses in the call and in the expectation", "why_tests_cant": "A read outside of the objects often goes unnoticed, and the tests of the project only pass valid pointers to cmp_deref_ptr functions.", "anchors": ["src/easyMockGenerate/src/CTemplateGenerator/CodeGeneratorCTemplate.cpp:447-448", "src/easyMockGenerate/src/CTemplateGenerator/CodeGeneratorCTemplate.cpp:503-559", "src/easyMockGenerate/src/CTemplateGenerator/CodeGeneratorCTemplate.cpp:646-676"]}
{"id": "C99", "title": "Calls made by several threads are each counted and served once", "statement": "When several threads of the code under test call a C mock, every call is counted and gets an expectation of its own, calls beyond the expectations are reported as unexpected, and the process goes on, whatever the schedule.", "quantifier": "all schedules, all numbers of threads, all lists of up to 256 expectations", "why_tests_cant": "The schedule is not under the control of a test; a lost count or a block that is freed twice needs a switch of threads between two accesses.", "anchors": ["src/easyMockFramework/src/MockedFunction.c:52-82", "src/easyMockFramework/src/MockedFunction.c:126-147", "src/easyMockGenerate/src/CTemplateGenerator/CodeGeneratorCTemplate.cpp:624-636"]}
{"id": "C100", "title": "Matchers may call mocks", "statement": "When a matcher of a call calls mocks itself, the same one included, every call is still served by the next expectation of its function, returns what this expectation says, reports its own number in errors, and the order of calls is checked as the calls are made.", "quantifier": "all histories, all nestings of calls, all mocks", "why_tests_cant": "The tests use the matchers of the framework and generated comparators, which call nothing; the effect depends on where the body of the mock reads the shared state.", "anchors": ["src/easyMockGenerate/src/CTemplateGenerator/CodeGeneratorCTemplate.cpp:609-696", "src/easyMockFramework/src/MockedFunction.c:52-92", "src/easyMockFramework/include/MockedFunction.h:82-125", "src/easyMockFramework/src/easyMock.cpp:154-164"]}
