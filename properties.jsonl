{"id": "C01", "title": "Indentation discipline of code sinks", "statement": "Every physical line written to a memory or file code sink is prefixed by exactly the sum of the indent amounts whose unindent() has not happened yet; a balanced series of indent()/unindent() calls restores the level and stack it started from; unindent() with nothing to undo raises and changes nothing.", "quantifier": "every finite sequence of writeln/indent/unindent calls with arbitrary text and arbitrary indent amounts", "why_tests_cant": "The history of nested indents is unbounded; tests exercise only shallow fixed nestings.", "anchors": ["pybindgen/typehandlers/codesink.py:CodeSink.indent", "pybindgen/typehandlers/codesink.py:CodeSink.unindent", "pybindgen/typehandlers/codesink.py:CodeSink._format_code", "pybindgen/typehandlers/codesink.py:MemoryCodeSink.writeln", "pybindgen/typehandlers/codesink.py:FileCodeSink.writeln"]}
{"id": "C02", "title": "Flushing a memory sink moves every line once, in order", "statement": "flush_to(target) appends to the target exactly the buffered lines, in order, right-stripped and re-indented by the target's current indentation, and empties the source, so a second flush_to adds nothing; flushing through any chain of memory sinks loses, duplicates and reorders no line.", "quantifier": "every buffer content, every target sink state, every number of flushes", "why_tests_cant": "Line lists and sink chains are unbounded.", "anchors": ["pybindgen/typehandlers/codesink.py:MemoryCodeSink.flush_to", "pybindgen/typehandlers/codesink.py:MemoryCodeSink.flush", "pybindgen/typehandlers/codesink.py:FileCodeSink.writeln"]}
{"id": "C03", "title": "Cleanup code runs last-in first-out and cancelled cleanups never run", "statement": "After any sequence of add_cleanup_code() and handle.cancel() calls on a chain of code blocks, get_cleanup_code() lists exactly the added and not cancelled chunks, each once, newest first within a block, followed by those of the predecessor block; cancelling a handle twice raises KeyError.", "quantifier": "every sequence of add/cancel operations on every chain of predecessor blocks", "why_tests_cant": "A resource leak appears only for particular interleavings of add and cancel; there are unboundedly many.", "anchors": ["pybindgen/typehandlers/base.py:CodeBlock.add_cleanup_code", "pybindgen/typehandlers/base.py:CodeBlock.remove_cleanup_code", "pybindgen/typehandlers/base.py:CodeBlock.get_cleanup_code"]}
{"id": "C04", "title": "A cleanup handle identifies one cleanup for ever", "statement": "Cancelling a handle removes only the cleanup chunk that handle was returned for, whatever other operations the block has undergone meanwhile.", "quantifier": "every history of add, cancel and clear on a code block", "why_tests_cant": "Depends on the whole operation history (handle reuse after clear()).", "anchors": ["pybindgen/typehandlers/base.py:CodeBlock.clear", "pybindgen/typehandlers/base.py:CodeBlock.CleanupHandle"]}
{"id": "C05", "title": "Error checks clean up everything acquired so far", "statement": "The text emitted by write_error_check(expr, extra) is an if-block on expr containing the extra cleanup, then every cleanup active at that point, newest first, then the block's error return, nested one indent level; emitting it consumes no cleanup, and later additions or cancellations do not alter it.", "quantifier": "every code block state, expression, optional extra cleanup and subsequent history", "why_tests_cant": "Error paths are multiplicative in the number of live cleanups.", "anchors": ["pybindgen/typehandlers/base.py:CodeBlock.write_error_check", "pybindgen/typehandlers/base.py:CodeBlock.write_error_return", "pybindgen/typehandlers/base.py:CodeBlock.write_cleanup"]}
{"id": "C06", "title": "Argument-parsing format string matches the declared parameters", "statement": "get_parameters() yields a quoted format string whose items are the added templates in final order, with exactly one '|' placed before the first optional one and none when there is no optional one, followed by all the value expressions in the same order; it raises ValueError exactly when a required parameter follows an optional one.", "quantifier": "every sequence of add_parameter calls (any templates, values, prepend and optional flags)", "why_tests_cant": "All interleavings of prepend/optional over unbounded lists.", "anchors": ["pybindgen/typehandlers/base.py:ParseTupleParameters.add_parameter", "pybindgen/typehandlers/base.py:ParseTupleParameters.get_parameters", "pybindgen/typehandlers/base.py:ParseTupleParameters.is_empty"]}
{"id": "C07", "title": "Keyword list is all-or-nothing and aligned with the parameters", "statement": "get_keywords() returns None exactly when no parameter has a name, returns the names in parameter order exactly when all (and at least one) have names, and raises ValueError exactly when some have and some have not.", "quantifier": "every sequence of add_parameter calls", "why_tests_cant": "Unbounded mixtures of named and anonymous parameters.", "anchors": ["pybindgen/typehandlers/base.py:ParseTupleParameters.get_keywords"]}
{"id": "C08", "title": "Return tuple building preserves order", "statement": "BuildValueParameters.get_parameters() lists templates and values in final order (prepended ones first, most recently prepended first), the number of values is the sum over items, and forcing a tuple only adds one pair of parentheses around the format.", "quantifier": "every sequence of add_parameter calls with any prepend flags", "why_tests_cant": "Unbounded sequences.", "anchors": ["pybindgen/typehandlers/base.py:BuildValueParameters.add_parameter", "pybindgen/typehandlers/base.py:BuildValueParameters.get_parameters"]}
{"id": "C09", "title": "Declared C variable names never clash", "statement": "All names returned by declare_variable()/reserve_variable() on a family of scopes sharing a parent are pairwise distinct.", "quantifier": "every sequence of requested base names on every family of scopes", "why_tests_cant": "A clash occurs only for particular combinations of base names and counts.", "anchors": ["pybindgen/typehandlers/base.py:DeclarationsScope.declare_variable", "pybindgen/typehandlers/base.py:DeclarationsScope.reserve_variable"]}
{"id": "C10", "title": "Each declaration is emitted exactly once under the returned name", "statement": "declare_variable(type, name, init, array) appends exactly one declaration line to its own scope, whose declarator is the returned name with the requested type, array suffix and initialiser; reserve_variable emits nothing; the returned name is the base name when unused and otherwise base name plus its use count.", "quantifier": "every scope history and every argument", "why_tests_cant": "Holds for every history of the shared name counter.", "anchors": ["pybindgen/typehandlers/base.py:DeclarationsScope.declare_variable", "pybindgen/typehandlers/base.py:DeclarationsScope.reserve_variable", "pybindgen/typehandlers/base.py:join_ctype_and_name"]}
{"id": "C11", "title": "Joining a C type and a name keeps both", "statement": "join_ctype_and_name(type, name) is the type followed by the name with the trailing stars attached to the name and exactly one separating blank added when needed: removing blanks gives type+name without blanks; it raises exactly for an empty type or an all-stars type.", "quantifier": "every type string and name string", "why_tests_cant": "Infinite string domain.", "anchors": ["pybindgen/typehandlers/base.py:join_ctype_and_name"]}
{"id": "C12", "title": "C type tokenizer terminates and is lossless", "statement": "Tokenizing a C type string ends and returns tokens whose concatenation equals the input without white space, comments and preprocessor lines.", "quantifier": "every input string", "why_tests_cant": "Infinite string domain; a non-terminating input is not found by example tests.", "anchors": ["pybindgen/typehandlers/ctypeparser/tokenizer.py:GetTokens"]}
{"id": "C13", "title": "C type normalization is idempotent", "statement": "normalize_type_string(normalize_type_string(t)) == normalize_type_string(t).", "quantifier": "every well-formed C type string (any nesting of template and function arguments)", "why_tests_cant": "Unbounded nesting and modifier permutations.", "anchors": ["pybindgen/typehandlers/ctypeparser/__init__.py:normalize_type_string", "pybindgen/typehandlers/ctypeparser/__init__.py:CType.__str__", "pybindgen/typehandlers/ctypeparser/__init__.py:CType.reorder_modifiers"]}
{"id": "C14", "title": "Normalization canonicalises const/volatile placement and spacing", "statement": "Two type strings that differ only in white space between tokens, in a leading '::', or in the order of const/volatile within one pointer level have the same normal form.", "quantifier": "every type and every permutation of its tokens within a pointer level", "why_tests_cant": "All permutations.", "anchors": ["pybindgen/typehandlers/ctypeparser/__init__.py:CType._reorder_modifier", "pybindgen/typehandlers/ctypeparser/__init__.py:CType.reorder_modifiers", "pybindgen/typehandlers/ctypeparser/__init__.py:_parse_type_recursive"]}
{"id": "C15", "title": "Normalization preserves the meaning of the type", "statement": "At every pointer/reference level the normal form has the same non-modifier tokens in the same order and the same multiset of const/volatile modifiers as the input; no modifier crosses a '*' or '&'.", "quantifier": "every type token sequence", "why_tests_cant": "Unbounded token sequences; getting it wrong silently changes which C++ object is const.", "anchors": ["pybindgen/typehandlers/ctypeparser/__init__.py:CType._reorder_modifier", "pybindgen/typehandlers/ctypeparser/__init__.py:CType.reorder_modifiers"]}
{"id": "C16", "title": "Type traits describe the type", "statement": "TypeTraits.type_is_const, type_is_reference, type_is_pointer and target_is_const agree with the const/reference/pointer structure of the parsed type, and target/ctype_no_modifiers/ctype_no_const_no_ref are the type with the named outer parts removed and nothing else changed.", "quantifier": "every type string", "why_tests_cant": "Infinite domain.", "anchors": ["pybindgen/typehandlers/ctypeparser/__init__.py:TypeTraits"]}
{"id": "C17", "title": "make_const and make_target_const add const exactly once", "statement": "After make_const the type is const and otherwise unchanged; after make_target_const the pointed-to/referred type is const and otherwise unchanged; both are idempotent.", "quantifier": "every type string", "why_tests_cant": "Infinite domain.", "anchors": ["pybindgen/typehandlers/ctypeparser/__init__.py:TypeTraits.make_const", "pybindgen/typehandlers/ctypeparser/__init__.py:TypeTraits.make_target_const"]}
{"id": "C18", "title": "Type registry: what is registered is what is found", "statement": "After registering a handler for a name, looking up any spelling with the same normal form returns that handler; registering a second handler under an equal normal form raises ValueError and leaves the registry unchanged; a lookup never changes the registry; a failed lookup raises TypeLookupError listing the names tried.", "quantifier": "every history of register calls and every lookup string", "why_tests_cant": "Unbounded registration histories.", "anchors": ["pybindgen/typehandlers/base.py:TypeMatcher.register", "pybindgen/typehandlers/base.py:TypeMatcher._raw_lookup_with_alias_support", "pybindgen/typehandlers/base.py:TypeMatcher.lookup"]}
{"id": "C19", "title": "Alias lookup terminates and finds only aliases", "statement": "With any set of type aliases, including cyclic ones, lookup terminates, and a handler returned for a name is registered under a name connected to it by alias steps.", "quantifier": "every alias graph, registry and name", "why_tests_cant": "Cycles of arbitrary length.", "anchors": ["pybindgen/typehandlers/base.py:TypeMatcher.add_type_alias", "pybindgen/typehandlers/base.py:TypeMatcher._raw_lookup_with_alias_support_recursive"]}
{"id": "C20", "title": "Every aliased type that has a handler is found", "statement": "If some name connected to the requested one through aliases has a registered handler, lookup of the requested name succeeds.", "quantifier": "every alias graph and registry", "why_tests_cant": "Unbounded graphs.", "anchors": ["pybindgen/typehandlers/base.py:TypeMatcher._raw_lookup_with_alias_support_recursive"]}
{"id": "C21", "title": "Transformed type lookups reverse the transformation", "statement": "A lookup that succeeds through a type transformation returns a handler registered for the untransformed name, wrapped by that transformation, and transformations are tried in registration order only after direct lookup failed.", "quantifier": "every registry and transformation list", "why_tests_cant": "Unbounded lists.", "anchors": ["pybindgen/typehandlers/base.py:TypeMatcher.lookup", "pybindgen/typehandlers/base.py:TypeMatcher.register_transformation"]}
{"id": "C22", "title": "Overload sets are called with uniform flags", "statement": "Before emitting an overload dispatcher, the wrappers kept all have the same calling-convention flags, form a subsequence of the declared ones, and include the first declared wrapper that survives; the process terminates.", "quantifier": "every list of overloads with every assignment of flags", "why_tests_cant": "Unbounded lists.", "anchors": ["pybindgen/overloading.py:OverloadedWrapper._normalize_py_method_flags"]}
{"id": "C23", "title": "Overload dispatch picks the first accepting overload", "statement": "The generated dispatcher runs the overloads in declaration order, returns the result of the first whose arguments parse, does not call any later one, and if all reject the arguments raises TypeError carrying all n error strings in order.", "quantifier": "every number of overloads and every acceptance pattern", "why_tests_cant": "2^n acceptance patterns for every n.", "anchors": ["pybindgen/overloading.py:OverloadedWrapper.generate"]}
{"id": "C24", "title": "Overload dispatch leaks no exception object", "statement": "On every path through the generated dispatcher each exception reference taken from a rejecting overload is released exactly once or handed to the raised TypeError.", "quantifier": "every number of overloads and every acceptance pattern", "why_tests_cant": "All paths, all n.", "anchors": ["pybindgen/overloading.py:OverloadedWrapper.generate"]}
{"id": "C25", "title": "Overload cartesian product enumerates every combination once", "statement": "vector_counter(vec) yields every element of the cartesian product of the input lists exactly once in lexicographic order.", "quantifier": "every list of non-empty lists", "why_tests_cant": "Product space unbounded.", "anchors": ["pybindgen/overloading.py:vector_counter"]}
{"id": "C26", "title": "Mangled names are valid C identifiers and stable", "statement": "mangle_name maps every C++ type name made of identifier characters and the punctuation it knows to a string without that punctuation, leaves identifiers unchanged, distributes over concatenation and is idempotent.", "quantifier": "every string", "why_tests_cant": "Infinite domain.", "anchors": ["pybindgen/utils.py:mangle_name", "pybindgen/utils.py:get_mangled_name"]}
{"id": "C27", "title": "Mangling keeps distinct names distinct", "statement": "Different C++ names get different mangled names, so generated helper functions and types never collide.", "quantifier": "every pair of names", "why_tests_cant": "Collisions are pairs in an infinite domain.", "anchors": ["pybindgen/utils.py:mangle_name", "pybindgen/module.py:Module.generate_c_to_python_type_converter", "pybindgen/module.py:Module.generate_python_to_c_type_converter"]}
{"id": "C28", "title": "Error handling policy decides exactly which wrappers are skipped", "statement": "call_with_error_handling returns the callable's result when it succeeds; otherwise, when an error handler is installed and handles the error it raises SkipWrapper, and when it is absent or declines the original error propagates; errors outside the handled classes always propagate unchanged.", "quantifier": "every callable outcome, handler and handler decision", "why_tests_cant": "Quantifies over arbitrary callables and handlers.", "anchors": ["pybindgen/utils.py:call_with_error_handling", "pybindgen/utils.py:skip_wrapper"]}
{"id": "C29", "title": "One-time definitions are emitted once per module tree", "statement": "In a module and all its submodules, at most one declare_one_time_definition(name) call succeeds for each name, whichever module makes it.", "quantifier": "every module tree and call sequence", "why_tests_cant": "Unbounded trees and histories.", "anchors": ["pybindgen/module.py:ModuleBase.declare_one_time_definition"]}
{"id": "C30", "title": "Includes come before code, each once", "statement": "In generated output of each section the include lines precede all code, in first-added order without duplicates.", "quantifier": "every sequence of add_include and generation calls, monolithic or split output", "why_tests_cant": "Unbounded histories.", "anchors": ["pybindgen/module.py:ModuleBase.add_include", "pybindgen/module.py:_MonolithicSinkManager", "pybindgen/module.py:_MultiSectionSinkManager"]}
{"id": "C31", "title": "Section brackets are properly nested", "statement": "begin_section/end_section accept exactly the call sequences that alternate begin(x), end(x) with equal names and each code belongs to the section open at that time.", "quantifier": "every call sequence", "why_tests_cant": "Unbounded sequences.", "anchors": ["pybindgen/module.py:Module.begin_section", "pybindgen/module.py:Module.end_section"]}
{"id": "C32", "title": "Namespaces and module paths are unique and consistent", "statement": "add_cpp_namespace is idempotent and returns the same module for the same name; the namespace path of a nested module is the path of its parent plus its own name; prefix/init function derive injectively from the path for plain names.", "quantifier": "every module tree", "why_tests_cant": "Unbounded trees.", "anchors": ["pybindgen/module.py:ModuleBase.add_cpp_namespace", "pybindgen/module.py:ModuleBase.get_namespace_path", "pybindgen/module.py:ModuleBase.get_module_path"]}
{"id": "C33", "title": "Class hierarchy queries are the reflexive-transitive closure", "statement": "is_subclass(other) holds exactly when other is reachable through parents; get_mro enumerates exactly the class and all its ancestors, nearer levels first, and get_all_implemented_conversions-like queries see each of them.", "quantifier": "every finite class hierarchy, including diamonds", "why_tests_cant": "Unbounded hierarchies.", "anchors": ["pybindgen/cppclass.py:CppClass.get_mro", "pybindgen/cppclass.py:CppClass.is_subclass"]}
{"id": "C34", "title": "Abstract classes are recognised", "statement": "A class is regarded as having pure virtual methods exactly when some pure virtual method in it or an ancestor is not overridden by a matching non-pure virtual nearer in the hierarchy.", "quantifier": "every hierarchy and method set", "why_tests_cant": "Unbounded hierarchies.", "anchors": ["pybindgen/cppclass.py:CppClass.have_pure_virtual_methods"]}
{"id": "C35", "title": "Memory policy is inherited along the hierarchy", "statement": "A class without own memory policy has the policy of the first base that has one; a class can not override an inherited policy; the root of a policy is well-defined.", "quantifier": "every hierarchy and declaration order", "why_tests_cant": "Unbounded hierarchies.", "anchors": ["pybindgen/cppclass.py:CppClass.__init__", "pybindgen/cppclass.py:CppClass.memory_policy"]}
{"id": "C36", "title": "Operators are registered once", "statement": "Adding the same binary, inplace or unary operator with the same operand types several times results in one generated case, and cases are tried in the order of first registration.", "quantifier": "every sequence of add_*_operator calls", "why_tests_cant": "Unbounded histories.", "anchors": ["pybindgen/cppclass.py:CppClass.add_binary_numeric_operator", "pybindgen/cppclass.py:CppClass.add_inplace_numeric_operator", "pybindgen/cppclass.py:CppClass.add_unary_numeric_operator", "pybindgen/cppclass.py:CppClass.add_binary_comparison_operator"]}
{"id": "C37", "title": "Dynamic type narrowing finds the closest registered ancestor", "statement": "The generated type map lookup returns the wrapper type registered for the nearest class on the object's single-inheritance chain and the fallback when none is registered, for any registration order.", "quantifier": "every single-inheritance chain and registration history", "why_tests_cant": "Unbounded chains.", "anchors": ["pybindgen/cppclass.py:TypeMap lookup code in Module"]}
{"id": "C38", "title": "At most one Python wrapper per C++ object", "statement": "With the std::map wrapper registry, lookup after register returns the registered wrapper, after unregister returns none, and an object has at most one live wrapper at any time when registrations and lookups follow the generated protocol.", "quantifier": "every interleaving of register/unregister/lookup on every set of objects", "why_tests_cant": "Unbounded histories.", "anchors": ["pybindgen/wrapper_registry.py:StdMapWrapperRegistry"]}
{"id": "C39", "title": "Small integer arguments are range checked", "statement": "A Python integer passed to an 8/16-bit integer parameter or returned from a Python override is accepted exactly when it is representable in the C type, and then the C++ side receives that value.", "quantifier": "every Python integer", "why_tests_cant": "The wrong values are a handful among infinitely many.", "anchors": ["pybindgen/typehandlers/inttype.py:Int8Param", "pybindgen/typehandlers/inttype.py:UInt8Param", "pybindgen/typehandlers/inttype.py:Int16Param", "pybindgen/typehandlers/inttype.py:UInt16Param", "pybindgen/typehandlers/inttype.py:Int8Return", "pybindgen/typehandlers/inttype.py:UInt8Return", "pybindgen/typehandlers/inttype.py:Int16Return", "pybindgen/typehandlers/inttype.py:UInt16Return"]}
{"id": "C40", "title": "Wrapper calling convention flags match the parsing code", "statement": "A forward wrapper is declared METH_NOARGS exactly when it parses no argument, takes keyword arguments exactly when it parses named arguments, and the generated C signature has exactly the parameters the flags promise.", "quantifier": "every parameter list", "why_tests_cant": "Unbounded parameter lists.", "anchors": ["pybindgen/typehandlers/base.py:ForwardWrapperBase.generate_body", "pybindgen/typehandlers/base.py:ForwardWrapperBase.get_py_method_def_flags"]}
{"id": "C41", "title": "C++ call receives arguments in declaration order", "statement": "The generated call passes one expression per declared parameter in declaration order; the Python keyword list consists of the input parameters in declaration order; the Python result lists the C++ return value first and then output parameters in declaration order.", "quantifier": "every parameter list and direction assignment", "why_tests_cant": "Unbounded lists.", "anchors": ["pybindgen/typehandlers/base.py:ForwardWrapperBase.generate_body"]}
{"id": "C42", "title": "Generated wrappers release what they acquire on every path", "statement": "On every execution path of a generated forward wrapper (parse failure, conversion failure, call, result building) each resource acquired before is released exactly once before return or transferred to the result.", "quantifier": "every parameter list and every failure point", "why_tests_cant": "Failure points times parameter lists.", "anchors": ["pybindgen/typehandlers/base.py:ForwardWrapperBase.generate_body", "pybindgen/typehandlers/base.py:CodeBlock"]}
{"id": "C43", "title": "Reverse wrappers hold and release the GIL", "statement": "In a generated virtual method proxy the GIL is acquired before any Python API use and released exactly once on every return path.", "quantifier": "every parameter list and failure point", "why_tests_cant": "All paths.", "anchors": ["pybindgen/typehandlers/base.py:ReverseWrapperBase.generate"]}
{"id": "C44", "title": "Threads unblocked around a call are re-blocked on every path", "statement": "With unblock_threads the thread state saved before the C++ call is restored exactly once before any Python API use on every path out of the call, including C++ exceptions.", "quantifier": "every wrapper configuration", "why_tests_cant": "Includes exceptional paths.", "anchors": ["pybindgen/typehandlers/base.py:ForwardWrapperBase.generate_body", "pybindgen/cppexception.py"]}
{"id": "C45", "title": "Owned C++ instances are freed exactly once", "statement": "When a Python wrapper dies, its C++ instance is deleted exactly when the wrapper owns it; a wrapper created with reference_existing_object never deletes it.", "quantifier": "every memory policy, ownership declaration and wrapper life history", "why_tests_cant": "All histories.", "anchors": ["pybindgen/cppclass.py:MemoryPolicy", "pybindgen/cppclass.py:CppClass._get_delete_code"]}
{"id": "C46", "title": "Custodians keep their wards alive", "statement": "With custodian/ward annotations the ward is not freed while a custodian is alive and is released once when the last custodian goes; adding the same pair twice has no further effect.", "quantifier": "every sequence of calls", "why_tests_cant": "All histories.", "anchors": ["pybindgen/cppclass.py:scan_custodians_and_wards", "pybindgen/cppmethod.py:_add_ward"]}
{"id": "C47", "title": "Delayed parameter specifications round-trip", "statement": "A specification built with param(*args, **kwargs) or retval(*args, **kwargs) is parsed back into exactly the same positional arguments and keywords when the wrapper is generated; a bare tuple has no keywords; too short specifications are refused.", "quantifier": "every argument list and keyword dictionary", "why_tests_cant": "ranges over all argument lists", "anchors": ["pybindgen/utils.py:param", "pybindgen/utils.py:retval", "pybindgen/utils.py:parse_param_spec", "pybindgen/utils.py:parse_retval_spec"]}
{"id": "C48", "title": "Docstring of an overload set", "statement": "The method table entry of an overload set shows the docstring shared by all overloads that have one, none if no overload has one, and code generation fails when two overloads have different docstrings.", "quantifier": "every list of overload docstrings", "why_tests_cant": "ranges over all lists of docstrings", "anchors": ["pybindgen/overloading.py:OverloadedWrapper.get_py_method_def"]}
{"id": "C49", "title": "Types registered anywhere in a module tree are found by name", "statement": "A type registered in a submodule is found afterwards by its full name from that module and from every ancestor, and by its short name from the module it was registered in only; when several types are registered under one name the latest one is found, and names never registered are not found.", "quantifier": "every module tree and every sequence of registrations", "why_tests_cant": "ranges over all trees and histories", "anchors": ["pybindgen/module.py:ModuleBase.register_type", "pybindgen/module.py:ModuleBase.__getitem__"]}
{"id": "C50", "title": "Functions are grouped into overload sets by Python name", "statement": "Functions added to a module form one overload set per Python-visible name, in order of first use, each containing every function of that name in the order they were added; with a name prefix to strip, the prefix is removed once and only at the front.", "quantifier": "every sequence of add_function calls", "why_tests_cant": "ranges over all sequences", "anchors": ["pybindgen/module.py:ModuleBase._add_function_obj"]}
{"id": "C51", "title": "The generated main file defines before it uses", "statement": "In the generated main source file every module's function table and module definition come before the init function that uses them, every submodule's init function comes before the init function of its parent that calls it, and every module in the tree gets one table and one init function calling exactly its submodules.", "quantifier": "every module tree, section layout and sink manager", "why_tests_cant": "ranges over all trees", "anchors": ["pybindgen/module.py:ModuleBase.do_generate", "pybindgen/module.py:Module.generate"]}
{"id": "C52", "title": "Permission to subclass is inherited", "statement": "A class wrapped under a base class that Python may subclass can itself be subclassed from Python unless its destructor is private, and asking to forbid it under such a base is rejected with ValueError; a class with a private destructor can never be subclassed.", "quantifier": "every collection of classes and every way of declaring a new one", "why_tests_cant": "ranges over all hierarchies and histories of calls", "anchors": ["pybindgen/cppclass.py:CppClass.__init__"]}
{"id": "C53", "title": "Helper class hooks run for the class and its ancestors", "statement": "The helper class of a wrapped class is passed to exactly the hooks registered on that class and on its ancestors, parents' hooks before its own, each registration once.", "quantifier": "every class hierarchy and every sequence of add_helper_class_hook calls", "why_tests_cant": "ranges over all hierarchies and histories of calls", "anchors": ["pybindgen/cppclass.py:CppClass._get_all_helper_class_hooks"]}
{"id": "C54", "title": "The nearest instance creation function is used", "statement": "New C++ instances of a class are created by the creation function set on the class or else on its nearest ancestor that has one; if none is set, by the memory policy's.", "quantifier": "every class hierarchy and every sequence of set_instance_creation_function calls", "why_tests_cant": "ranges over all hierarchies and histories of calls", "anchors": ["pybindgen/cppclass.py:CppClass.get_instance_creation_function", "pybindgen/cppclass.py:CppClass.get_post_instance_creation_function"]}
{"id": "C55", "title": "The helper class overrides every virtual method once", "statement": "The generated helper class of a class that Python can subclass overrides every virtual method declared by the class or any ancestor exactly once, using the declaration of the nearest class, and overrides nothing else; if a pure virtual method cannot be wrapped, the class and its descendants get no helper class.", "quantifier": "every class hierarchy and every sequence of add_method, add_function_as_method and set_helper_class_disabled calls", "why_tests_cant": "ranges over all hierarchies and histories of calls", "anchors": ["pybindgen/cppclass.py:CppHelperClass.add_virtual_method", "pybindgen/cppclass.py:CppClass._inherit_helper_class_parent_virtuals", "pybindgen/cppclass.py:CppClass._add_method_obj", "pybindgen/cppclass.py:CppClass.add_method", "pybindgen/cppclass.py:CppClass.get_helper_class"]}
{"id": "C56", "title": "Values returned by a Python override reach C++", "statement": "When C++ calls a virtual method overridden in Python, the value returned by the override is stored in the C++ return value and the method's output parameters: the return value first, then the output parameters in declaration order; a result that does not have that form is refused.", "quantifier": "every method with scalar return value and scalar value, pointer or reference parameters of any number and direction, and every Python result", "why_tests_cant": "ranges over all signatures and all returned objects", "anchors": ["pybindgen/typehandlers/base.py:ReverseWrapperBase.generate", "pybindgen/typehandlers/inttype.py:IntPtrParam.convert_c_to_python", "pybindgen/typehandlers/inttype.py:IntRefParam.convert_c_to_python", "pybindgen/typehandlers/inttype.py:IntReturn.convert_python_to_c"]}
{"id": "C57", "title": "Generated code uses the qualified C++ name", "statement": "The C++ name that generated code uses for a class, function, exception or enum is its qualified name: the namespaces of its module chain (or the foreign namespace given), the enclosing classes, and the name with its template arguments; so two declarations share a C++ name only if they are the same entity.", "quantifier": "every depth of submodules (C++ namespaces) and nested classes, every name, foreign namespace and list of template parameters", "why_tests_cant": "ranges over all nestings and names", "anchors": ["pybindgen/cppclass.py:CppClass._update_names", "pybindgen/function.py:Function.generate_call", "pybindgen/cppexception.py:CppException._update_names", "pybindgen/enum.py:Enum.get_full_name", "pybindgen/module.py:ModuleBase.cpp_namespace_prefix"]}
{"id": "C58", "title": "Enum constants", "statement": "An enum defines one Python constant per enumerator, in order, under the enumerator's name, with the enumerator's C++ value (its qualified name with the value prefix, or the expression given), on the module or, for an enum of a class, on the class; an enum imported from another module defines nothing.", "quantifier": "every enum: any list of values, prefix, namespace, enclosing class", "why_tests_cant": "ranges over all declarations", "anchors": ["pybindgen/enum.py:Enum.generate"]}
{"id": "C59", "title": "C symbols of classes are identifiers and distinct", "statement": "The C symbols generated for a class (object struct, type object, metaclass) are C identifiers, and different classes of a module get different symbols.", "quantifier": "every C++ class name, namespace, nesting and template argument list", "why_tests_cant": "ranges over all names", "anchors": ["pybindgen/cppclass.py:CppClass._update_names", "pybindgen/utils.py:mangle_name"]}
{"id": "C60", "title": "A list passed for a container becomes that container", "statement": "Where a generated function or constructor takes a container, a Python list is accepted exactly when every item converts to the element type (for mappings: is a pair whose parts convert), and the C++ container received has exactly the converted items: in order for sequences, as the insertions in order give them for sets and mappings; an instance of the wrapper type is received as its current contents; anything else is refused with TypeError.", "quantifier": "every container kind, element type, Python object, list length", "why_tests_cant": "ranges over all lists, element converters and container kinds", "anchors": ["pybindgen/container.py:Container._generate_container_constructor", "pybindgen/container.py:Container.generate_forward_declarations"]}
{"id": "C61", "title": "Iterating a container wrapper yields its elements in order", "statement": "Iterating a container wrapper yields every element exactly once, in the order of the C++ container, then stops for good; iterators are independent of each other and keep their container alive.", "quantifier": "every history of creating, iterating, passing and dropping wrappers and iterators", "why_tests_cant": "ranges over all interleavings of operations", "anchors": ["pybindgen/container.py:IterNextWrapper", "pybindgen/container.py:ContainerTraits"]}
{"id": "C62", "title": "Memory of container wrappers", "statement": "In every history of operations no C++ container is used after it was deleted, each is deleted exactly once, when the last Python reference (including those of iterators) to its wrapper goes, and none is leaked.", "quantifier": "every history of operations on container wrappers and iterators", "why_tests_cant": "ranges over all histories", "anchors": ["pybindgen/container.py:Container._generate_tp_dealloc", "pybindgen/container.py:Container._generate_iter_methods"]}
{"id": "C63", "title": "Iterating a mapping yields (key, value)", "statement": "Iterating a wrapper of a C++ mapping yields pairs whose first item is the key and whose second item is the value, for every key and value type.", "quantifier": "every pair of key and value return handlers", "why_tests_cant": "ranges over all pairs of handlers", "anchors": ["pybindgen/container.py:IterNextWrapper"]}
{"id": "C64", "title": "Type structures are laid out as CPython reads them", "statement": "Whatever slots were set, if a type, number-method or sequence-method structure is generated, its initializers, after preprocessing for any Python 2 or 3 version, are in number and order those of CPython's struct members, and each member gets the slot of its own name, its default if unset, or zero where it cannot be chosen (division slots being true division on Python 3); generation fails with KeyError exactly when the name, size or variable is missing.", "quantifier": "every dictionary of slots and every Python version", "why_tests_cant": "ranges over all slot dictionaries and versions", "anchors": ["pybindgen/pytypeobject.py:PyTypeObject", "pybindgen/pytypeobject.py:PyNumberMethods", "pybindgen/pytypeobject.py:PySequenceMethods"]}
{"id": "C65", "title": "Slots chosen by the user are kept", "statement": "A type slot set by the user before generation keeps the user's value; every other slot gets exactly what the class provides and nothing else is added; a type structure can always be written; garbage collection and base-type flags agree with tp_traverse, tp_clear and tp_dictoffset.", "quantifier": "every class configuration and every set of user slots", "why_tests_cant": "ranges over all combinations of class features and user slots", "anchors": ["pybindgen/cppclass.py:CppClass.generate", "pybindgen/cppclass.py:CppClass._generate_type_structure"]}
{"id": "C66", "title": "Instances can be read through the struct of every base", "statement": "The C struct generated for the instances of a wrapped class starts with the same members, of the same types and in the same order, as the struct of each of its bases, so that code generated for a base reads and writes the right fields of an instance of a derived class.", "quantifier": "every class hierarchy and every class configuration", "why_tests_cant": "ranges over all hierarchies and combinations of class options", "anchors": ["pybindgen/cppclass.py:CppClass.generate_forward_declarations"]}
{"id": "C67", "title": "The sequence protocol is faithful", "statement": "len(), indexing, item assignment, item deletion and membership tests on a wrapped class call the class's method with the same object, index and value, give its result back to Python, pass its exceptions on, follow CPython's slot protocol (an error result exactly when an exception is set) and leak no reference.", "quantifier": "every class with sequence methods, every index, value and result of the method", "why_tests_cant": "ranges over all indices, values, results and exceptions", "anchors": ["pybindgen/pytypeobject.py:PySequenceMethods", "pybindgen/cppclass.py:CppClass._generate_sequence_methods"]}
{"id": "C68", "title": "Every generated method can be called from Python", "statement": "Every method added to a class whose wrapper is generated is reachable from Python under its name, through the method table or through the type slot of its special name, the table has no other entries, and a method whose generation fails leaves no trace.", "quantifier": "every class, every set of methods and every generation outcome", "why_tests_cant": "ranges over all method sets and failures", "anchors": ["pybindgen/cppclass.py:CppClass._generate_methods", "pybindgen/cppclass.py:CppClass.add_method"]}
{"id": "C69", "title": "Inherited methods get the right object with several bases", "statement": "Whatever public method Python finds on an instance of a wrapped class, inherited along any number of classes with one or several bases, its wrapper takes the instance's C++ pointer for what it is: the method is in the method table of the instance's own class, or of an ancestor that lies at the start of the C++ object. A class with several bases hands on exactly the methods that one of its ancestors offers and that it does not define itself.", "quantifier": "every class hierarchy, every registration of methods and every method name", "why_tests_cant": "Hierarchies are unbounded, and a wrong pointer often goes unnoticed.", "anchors": ["pybindgen/cppclass.py:CppClass._generate_MI_parent_methods", "pybindgen/cppclass.py:CppClass._generate_methods", "pybindgen/cppmethod.py:CppMethod.matches_signature"]}
{"id": "C70", "title": "Virtual methods dispatch to the Python override", "statement": "When C++ calls a virtual method of an object whose Python class overrides it, the Python override is called on that object; when the Python class does not override it, the C++ implementation of the class runs with the same arguments and its value is returned; never both.", "quantifier": "every virtual method, every signature, every Python subclass and every outcome of the override", "why_tests_cant": "ranges over all signatures, all subclasses and every failure point of the generated proxy", "anchors": ["pybindgen/cppmethod.py:CppVirtualMethodProxy.generate", "pybindgen/cppmethod.py:CppVirtualMethodProxy.generate_python_call", "pybindgen/typehandlers/base.py:ReverseWrapperBase.generate"]}
{"id": "C71", "title": "A Python override receives the C++ arguments", "statement": "When a virtual method call is dispatched to a Python override, the override receives exactly the input parameters of the C++ call, in declaration order, each as the Python form of its value.", "quantifier": "every signature, every combination of directions and every argument value", "why_tests_cant": "ranges over all signatures and values", "anchors": ["pybindgen/cppmethod.py:CppVirtualMethodProxy.generate_python_call", "pybindgen/typehandlers/base.py:BuildValueParameters"]}
{"id": "C72", "title": "What cannot be wrapped can be skipped", "statement": "When a parameter or return type of a function or method cannot be converted, the failure reaches the settings.error_handler, and a handler that accepts it makes the generator skip that wrapper and go on with the rest of the module.", "quantifier": "every function, method and virtual method, every position of the failing type, every error handler", "why_tests_cant": "ranges over all signatures and every point at which generation can fail", "anchors": ["pybindgen/typehandlers/base.py:ForwardWrapperBase.generate_body", "pybindgen/typehandlers/base.py:ReverseWrapperBase.generate", "pybindgen/utils.py:call_with_error_handling"]}
{"id": "C73", "title": "C++ exceptions become the declared Python exceptions", "statement": "When a wrapped function, method or constructor declared with throw=[...] throws an instance of a listed class, the Python caller gets the Python exception declared for the most specific listed class of the thrown object, with the message given by message_rvalue, all temporaries are released and nothing of the normal return runs.", "quantifier": "every function, every list of exceptions, every class hierarchy and every thrown object", "why_tests_cant": "ranges over all lists, hierarchies, message expressions and thrown objects", "anchors": ["pybindgen/cppexception.py:CppException.write_convert_to_python", "pybindgen/function.py:Function.generate_call", "pybindgen/cppmethod.py:CppMethod.generate_call"]}
{"id": "C74", "title": "Types are set up after the types they refer to", "statement": "Whatever the arrangement of classes, containers, exceptions and enums in a module and its submodules, generation succeeds, and after import every type has the Python bases it was declared with and every nested type is an attribute of its outer class.", "quantifier": "every history of add_* calls, every tree of modules", "why_tests_cant": "ranges over all arrangements of types in modules and all orders of addition", "anchors": ["pybindgen/module.py:ModuleBase.do_generate", "pybindgen/cppclass.py:CppClass.generate", "pybindgen/cppexception.py:CppException.generate"]}
{"id": "C75", "title": "The attribute table of a class is what was declared", "statement": "The attribute table of a generated class has one row per declared attribute, in order of declaration and under its Python name, with a getter whenever the getter's code could be generated and a setter exactly when the attribute is not constant and the setter's code could be generated; declaring a name twice makes generation fail; and the functions written are exactly those the table refers to.", "quantifier": "every class, every list of attribute declarations, every error handler", "why_tests_cant": "ranges over all declarations, all handlers and all ways code generation can fail", "anchors": ["pybindgen/cppattribute.py:PyGetSetDef.generate", "pybindgen/cppclass.py:CppClass.add_instance_attribute", "pybindgen/cppclass.py:CppClass.add_static_attribute"]}
{"id": "C76", "title": "The functions written for a class have different names", "statement": "All C functions written for one class (method and constructor wrappers with their overloads, getters, setters, slot functions) have different names, and no two rows of its attribute table have the same Python name.", "quantifier": "every class: every set of methods, overloads, constructors, attributes and slots", "why_tests_cant": "ranges over all names a user may choose", "anchors": ["pybindgen/overloading.py:OverloadedWrapper.generate", "pybindgen/cppattribute.py", "pybindgen/cppcustomattribute.py", "pybindgen/cppmethod.py:CppMethod"]}
{"id": "C77", "title": "Reading an attribute gives the C++ value", "statement": "Reading obj.x evaluates the C++ expression the attribute was declared for (the member, the getter method or function applied to the object, the static member) and returns its value converted to Python, whatever other attributes the class has.", "quantifier": "every class, every list of attribute declarations, every value type", "why_tests_cant": "ranges over all lists of declarations sharing mutable type objects", "anchors": ["pybindgen/cppattribute.py:CppInstanceAttributeGetter", "pybindgen/cppattribute.py:CppStaticAttributeGetter", "pybindgen/cppcustomattribute.py:CppCustomInstanceAttributeGetter"]}
{"id": "C78", "title": "Assigning an attribute stores the value once or fails", "statement": "Assigning obj.x = v either stores the converted v in the C++ member (or hands it once to the setter) and succeeds, or stores nothing and fails with an exception; temporaries are released exactly once.", "quantifier": "every class, every list of attribute declarations, every value type, every execution of the setter", "why_tests_cant": "ranges over all declarations and all executions including failing conversions", "anchors": ["pybindgen/cppattribute.py:CppInstanceAttributeSetter.generate", "pybindgen/cppattribute.py:CppStaticAttributeSetter.generate", "pybindgen/cppcustomattribute.py:CppCustomInstanceAttributeSetter.generate"]}
{"id": "C79", "title": "Deleting an attribute raises an exception", "statement": "`del obj.x` on a wrapped C++ attribute raises a Python exception and has no other effect.", "quantifier": "every class, every attribute, every execution", "why_tests_cant": "ranges over all attributes and all executions of their setters", "anchors": ["pybindgen/cppattribute.py:CppInstanceAttributeSetter.generate", "pybindgen/cppattribute.py:PyGetSetDef.generate"]}
{"id": "C80", "title": "Class arguments reach C++ as the objects they wrap", "statement": "When Python calls a wrapped function with an argument of wrapped class type (by value, reference, pointer or shared_ptr), C++ receives the very object the argument wraps (for an implicit conversion, a value made from it), the declared default if the argument is left out, a null pointer for None where that is allowed; every other argument is refused with TypeError before C++ is called, and a wrapper whose object is gone is never dereferenced.", "quantifier": "every kind of class parameter with every option, every Python argument", "why_tests_cant": "ranges over all combinations of passing convention, conversions, defaults and Python objects", "anchors": ["pybindgen/cppclass.py:CppClassParameter.convert_python_to_c", "pybindgen/cppclass.py:CppClassRefParameter.convert_python_to_c", "pybindgen/cppclass.py:CppClassPtrParameter.convert_python_to_c", "pybindgen/typehandlers/smart_ptr.py:CppClassSharedPtrParameter.convert_python_to_c"]}
{"id": "C81", "title": "Objects passed to Python overrides stay valid", "statement": "When C++ calls a virtual method overridden in Python with an argument of wrapped class type, then whatever references the override keeps and whether it succeeds or raises: the caller's object and every other object survive unchanged (unless ownership was transferred), a kept wrapper stays usable and owns a copy (or a counted reference to the object itself), an object that already has a wrapper is passed as that wrapper, and no memory or reference is leaked or used after being freed.", "quantifier": "every kind of class parameter of a virtual method, every state of memory, every behaviour of the override", "why_tests_cant": "ranges over all histories of references kept and dropped by the override", "anchors": ["pybindgen/cppclass.py:CppClassParameter.convert_c_to_python", "pybindgen/cppclass.py:CppClassRefParameter.convert_c_to_python", "pybindgen/cppclass.py:CppClassPtrParameter.convert_c_to_python"]}
{"id": "C82", "title": "Scanning headers registers every class once, after its bases", "statement": "Scanning the classes of any set of headers ends; every wrapped class is registered exactly once, after all its base classes, every class not registered was ignored, anonymous, not visible or had a base class that is not wrapped, and every casting operator between registered classes is declared as a conversion.", "quantifier": "every set of class declarations in every order, with any nesting, inheritance and casting operators", "why_tests_cant": "ranges over all class graphs and all orders in which the classes are listed", "anchors": ["pybindgen/castxmlparser.py:ModuleParser._scan_namespace_types", "pybindgen/castxmlparser.py:ModuleParser._scan_class_operators", "pybindgen/castxmlparser.py:postpone_class"]}
{"id": "C83", "title": "A declaration gets the annotations written above it", "statement": "For every header file, a declaration gets exactly the annotations in the comment lines directly above it, each key with the value written; malformed annotations and comments attached to no declaration are reported, and reading annotations never fails.", "quantifier": "every header file, every declaration position, every annotation text", "why_tests_cant": "ranges over all texts and positions", "anchors": ["pybindgen/castxmlparser.py:AnnotationsScanner.get_annotations", "pybindgen/castxmlparser.py:AnnotationsScanner.warn_unused_annotations", "pybindgen/castxmlparser.py:AnnotationsScanner.parse_boolean"]}
{"id": "C84", "title": "Annotations do what they say", "statement": "Every annotation of a class, method, function, return value or parameter in a header either has its documented effect on the registration made for that declaration or is reported as unused; no registration keyword comes from anywhere else.", "quantifier": "all declarations, all sets of annotations with all values", "why_tests_cant": "Annotations combine with each other and with what the header declares; a dropped or overridden annotation shows only for particular combinations.", "anchors": ["pybindgen/castxmlparser.py:CastXmlTypeRegistry.lookup_return", "pybindgen/castxmlparser.py:CastXmlTypeRegistry.lookup_parameter", "pybindgen/castxmlparser.py:ModuleParser._apply_class_annotations", "pybindgen/castxmlparser.py:ModuleParser._scan_class_methods", "pybindgen/castxmlparser.py:ModuleParser._scan_namespace_functions"]}
{"id": "C85", "title": "Script text is the call it stands for", "statement": "Every registration call that the header parser writes into a Python script (add_class, add_exception, add_enum, add_method, add_constructor, attributes, operators, add_function and its as-method and as-constructor forms, containers, typedefs, type aliases, implicit conversions) is read by Python as a call of that function with the same positional arguments and the same keyword arguments, for all names, C++ types, default values and annotation values, quotes, line breaks and characters beyond ASCII included; two calls with the same text are the same call.", "quantifier": "all registration calls with all argument texts and values of the kinds the parser produces", "why_tests_cant": "The texts come from arbitrary headers; escaping errors show only for particular characters, quotes and nestings, which no finite set of headers covers.", "anchors": ["pybindgen/castxmlparser.py:_pygen_kwargs", "pybindgen/castxmlparser.py:_pygen_args_kwargs", "pybindgen/castxmlparser.py:_pygen_retval", "pybindgen/castxmlparser.py:_pygen_param", "pybindgen/castxmlparser.py:ModuleParser._scan_namespace_types", "pybindgen/castxmlparser.py:ModuleParser._scan_class_methods", "pybindgen/castxmlparser.py:ModuleParser._scan_namespace_functions", "pybindgen/utils.py:param", "pybindgen/utils.py:retval"]}
{"id": "C86", "title": "The generated script registers what the parser registered", "statement": "Running the Python script that the header parser writes registers the same methods, constructors, attributes, operators and functions as parsing the header in memory did, in the same order and with the same arguments, and leaves the same marks on classes (cannot be constructed, helper class not possible).", "quantifier": "all class and function declarations, with all annotations and all types, known and unknown", "why_tests_cant": "Two code paths per registration must agree for every declaration; a difference shows only for the kind of declaration that takes the differing branch.", "anchors": ["pybindgen/castxmlparser.py:ModuleParser._scan_class_methods", "pybindgen/castxmlparser.py:ModuleParser._scan_namespace_functions", "pybindgen/castxmlparser.py:_pygen_kwargs", "pybindgen/castxmlparser.py:_pygen_retval", "pybindgen/castxmlparser.py:_pygen_param"]}
{"id": "C87", "title": "Every registration of a script ends up in its namespace", "statement": "For all trees of namespaces and classes, running the script written by the header parser makes every registration in the namespace or class it was made in while scanning, exactly once and in the same order, also if the script is divided into sections.", "quantifier": "all trees of namespaces and classes with all names, all assignments of declarations to sections", "why_tests_cant": "Functions of the script are found by name; names of different namespaces or classes coincide only for particular headers.", "anchors": ["pybindgen/castxmlparser.py:ModuleParser._scan_namespace_types", "pybindgen/castxmlparser.py:ModuleParser._scan_namespace_functions", "pybindgen/castxmlparser.py:ModuleParser._scan_methods", "pybindgen/castxmlparser.py:PygenSection"]}
{"id": "C88", "title": "Members of a class are registered as they are declared", "statement": "Parsing a class registers every accessible method, constructor, attribute and operator of the class that is not annotated ignore and whose types are known, once, in the order of declaration, with its name, C++ types, parameter names, default values, constness, staticness, virtuality, visibility, deprecation and exceptions; one whose types are not known is reported; nothing else is registered besides implicit constructors.", "quantifier": "all class declarations with all members, types and annotations, all sets of known types", "why_tests_cant": "Ranges over all combinations of kinds of members, qualifiers, access and unknown types; wrong registrations show only for particular combinations.", "anchors": ["pybindgen/castxmlparser.py:ModuleParser._scan_class_methods", "pybindgen/castxmlparser.py:ModuleParser._scan_class_operators"]}
{"id": "C89", "title": "A class can be constructed and copied in Python exactly if it can in C++", "statement": "A class found in a header has a constructor without arguments (a copy constructor) in Python exactly if it has an accessible one in C++ that is not annotated ignore.", "quantifier": "all class declarations, with all constructors, annotations and anonymous structures inside", "why_tests_cant": "Explicit, implicit, hidden and ignored constructors interact with what is known about types; ranges over all combinations.", "anchors": ["pybindgen/castxmlparser.py:ModuleParser._scan_class_methods", "pybindgen/castxmlparser.py:ModuleParser.scan_methods"]}
{"id": "C90", "title": "Strings cross the boundary unchanged", "statement": "For every wrapped function with parameters of type char*, std::string, std::string&, std::string*, Glib::ustring, Glib::ustring&, Glib::ustring* or char, in every direction: a Python string passed as argument reaches the C++ function as exactly its UTF-8 bytes (a parameter left out as its default value), and a string the function returns or stores in an out parameter reaches Python as the string its bytes encode. A string is refused only if the C++ type cannot hold it.", "quantifier": "all lists of string parameters and directions, all return types, all argument strings (including zero characters and non-ASCII), all results of the function", "why_tests_cant": "Tests use a few short ASCII strings; zero characters, multi-byte characters, sizes counted in characters instead of bytes and mixtures of in, out and inout parameters are unbounded.", "anchors": ["pybindgen/typehandlers/stringtype.py:CStringParam", "pybindgen/typehandlers/stringtype.py:StdStringParam", "pybindgen/typehandlers/stringtype.py:StdStringRefParam", "pybindgen/typehandlers/stringtype.py:StdStringPtrParam", "pybindgen/typehandlers/stringtype.py:GlibStringParam", "pybindgen/typehandlers/stringtype.py:CharParam", "pybindgen/typehandlers/stringtype.py:CStringReturn"]}
{"id": "C91", "title": "A boolean parameter receives the truth value of its argument", "statement": "For every parameter of type bool, bool& or bool*: whatever object is passed, the C++ function receives its truth value (the default value if the argument is left out); if the truth value cannot be determined the function is not called. A bool stored in an out parameter or returned reaches Python as True or False.", "quantifier": "all boolean parameters, directions and default values, all Python objects, all results", "why_tests_cant": "Any Python object can be passed, including ones whose __bool__ raises; tests pass True and False.", "anchors": ["pybindgen/typehandlers/booltype.py:BoolParam", "pybindgen/typehandlers/booltype.py:BoolRefParam", "pybindgen/typehandlers/booltype.py:BoolPtrParam", "pybindgen/typehandlers/booltype.py:BoolReturn"]}
{"id": "C92", "title": "Fixed-length array parameters", "statement": "A parameter of type float* or unsigned int* declared with array_length=n accepts exactly the lists of n objects convertible to the element type, and the function receives the n converted elements in order; an out parameter gives Python the list of the n elements the function leaves in the array. This holds for every array parameter of a function.", "quantifier": "all lengths, all lists of Python objects, all array contents, any number of array parameters", "why_tests_cant": "Lengths, list contents and the number of array parameters in a function are unbounded; tests use one array of one length.", "anchors": ["pybindgen/typehandlers/inttype.py:UnsignedIntPtrParam", "pybindgen/typehandlers/floattype.py:FloatPtrParam"]}
{"id": "C93", "title": "Containers are passed by conversion and returned by copy, Python objects by identity", "statement": "For a container parameter the C++ function receives what the container's converter makes of the argument: the container itself by value or reference, its address by pointer, or a new copy it owns if ownership is transferred; arguments the converter refuses are refused. A container left in an out parameter or returned reaches Python as a new wrapper holding a copy of it. A PyObject* parameter receives the very object given, and a PyObject* returned is the result.", "quantifier": "all containers, converters, directions, arguments and results", "why_tests_cant": "The converter, the argument and the function's results are arbitrary.", "anchors": ["pybindgen/container.py:ContainerParameter", "pybindgen/container.py:ContainerRefParameter", "pybindgen/container.py:ContainerPtrParameter", "pybindgen/container.py:ContainerReturnValue", "pybindgen/typehandlers/pyobjecttype.py:PyObjectParam", "pybindgen/typehandlers/pyobjecttype.py:PyObjectReturnValue"]}
{"id": "C94", "title": "Returning an object of a wrapped class gives the right wrapper", "statement": "When a wrapped function returns an object of a wrapped class (by value, reference, pointer or shared pointer), the generated conversion gives: None for a null pointer; the very Python object for an object created by a Python subclass; the wrapper already registered for a registered object, with exactly one new reference; otherwise a new, completely initialised wrapper of the type found by down-casting (or of the declared type), holding a copy, the object with ownership, or the borrowed object, as annotated. Reference counts, the wrapper registry, other wrappers and the heap change only as that says. The conversion of every annotation for which code is generated compiles, and annotations without a defined meaning are refused when the code is generated.", "quantifier": "all class configurations (memory policy, helper class, registry, type narrowing, copy constructor), ownership annotations, and states of the interpreter, registry and heap", "why_tests_cant": "The code is chosen by about a hundred combinations of class configuration and annotation, and its effect depends on the registry and the heap when the call returns.", "anchors": ["pybindgen/cppclass.py:CppClassReturnValueBase", "pybindgen/cppclass.py:CppClassReturnValue", "pybindgen/cppclass.py:CppClassRefReturnValue", "pybindgen/cppclass.py:CppClassPtrReturnValue", "pybindgen/cppclass.py:common_shared_object_return", "pybindgen/cppclass.py:write_create_new_wrapper", "pybindgen/typehandlers/smart_ptr.py:CppClassSharedPtrReturnValue"]}
{"id": "C95", "title": "Objects returned by Python overrides reach C++ and stay valid", "statement": "When a Python override of a virtual method returns an instance of the wrapped class the method is declared to return, the C++ caller receives: by value or constant reference, a copy of the wrapped object; by pointer with ownership, an object of its own — a copy, a counted reference to the object, or the object itself if its class cannot be copied; by shared pointer, a share; by pointer without ownership, the wrapped object. What the caller receives exists after the call whatever the program does with the Python object, and apart from it everything is as if the result had been dropped. Any other result is refused; declarations that cannot be supported are refused when the code is generated, and all other generated code compiles.", "quantifier": "all class configurations and return annotations, all states of the heap, the registry and the Python reference counts, all results", "why_tests_cant": "Whether the caller's object survives depends on who else holds the Python object, and the code on the class configuration.", "anchors": ["pybindgen/cppclass.py:CppClassReturnValue.convert_python_to_c", "pybindgen/cppclass.py:CppClassRefReturnValue.convert_python_to_c", "pybindgen/cppclass.py:CppClassPtrReturnValue.convert_python_to_c", "pybindgen/typehandlers/smart_ptr.py:CppClassSharedPtrReturnValue.convert_python_to_c", "pybindgen/typehandlers/base.py:ReverseWrapperBase.generate"]}
{"id": "C96", "title": "Converter functions convert exactly, own what they should, and are defined once", "statement": "The converter functions a module generates for container items and operands (a Python object to a C++ value of a type, and a C++ value to a Python object) do this for every type and every object: from Python, either the value the object stands for is stored, the references C++ is to own are held and no others, no memory is left behind and no exception is set, or an exception is set and nothing has changed; to Python, the object for the value is given; a value given to Python converts back to itself. Every converter a module refers to is defined in it exactly once, for the type it is used for.", "quantifier": "all value types with a return handler (integers, bool, floating point, char, C and C++ strings, PyObject*, classes), all Python objects and C++ values, all sequences of requests for converters", "why_tests_cant": "Inputs are unbounded, reference counts and leaked buffers are not visible to a test of the result, and sharing of converters depends on everything else in the module.", "anchors": ["pybindgen/converter_functions.py:PythonToCConverter", "pybindgen/converter_functions.py:CToPythonConverter", "pybindgen/module.py:ModuleBase.generate_python_to_c_type_converter", "pybindgen/module.py:ModuleBase.generate_c_to_python_type_converter", "pybindgen/typehandlers/inttype.py", "pybindgen/typehandlers/stringtype.py", "pybindgen/typehandlers/booltype.py", "pybindgen/typehandlers/pyobjecttype.py"]}
{"id": "C97", "title": "Calling a wrapped class constructs an object of that class", "statement": "Calling a wrapped class from Python, or initialising an instance of a Python subclass of it, either raises an exception and leaves the Python object as it was, or makes the Python object own one new C++ object made by a declared, accessible constructor of that very class that accepts the arguments: of the class itself when the class is called, of its helper class, tied to the Python object, for a Python subclass of a class with helper. Protected constructors can only be used by Python subclasses; classes that are abstract, marked as not constructible or have no constructor raise TypeError. The helper class has one constructor for each constructor signature, passing its parameters on, constructors inherited from the bases are the ones C++ would provide, and the code compiles.", "quantifier": "all classes (memory policies, helpers, hierarchy), all lists of constructors and functions used as constructors, all arguments, states of the Python object and outcomes of the C++ constructor", "why_tests_cant": "The code depends on the class configuration, visibility of each constructor and overloads; tests try a few classes.", "anchors": ["pybindgen/cppmethod.py:CppConstructor", "pybindgen/cppmethod.py:CppFunctionAsConstructor", "pybindgen/cppmethod.py:CppNoConstructor", "pybindgen/cppclass.py:CppClass._generate_constructor", "pybindgen/cppclass.py:CppClass.get_instance_creation_function", "pybindgen/cppclass.py:CppClass.get_construct_name", "pybindgen/cppclass.py:CppClass.inherit_default_constructors", "pybindgen/cppclass.py:CppHelperClass.generate_forward_declarations", "pybindgen/typehandlers/smart_ptr.py"]}
{"id": "C98", "title": "copy.copy of a wrapper gives an equal, independent object", "statement": "copy.copy(x), for x an instance of a wrapped class with a copy constructor, returns a new Python object of the type of x with the attributes of x, that owns a new C++ object equal to the one of x and of the same class, registered if the class has a wrapper registry; x, its object and everything else are unchanged. A class has __copy__ exactly if its copy constructor was declared and it can be constructed, and the code compiles and never crashes.", "quantifier": "all classes (memory policy, subclassing, registry, hierarchy), all instances (including those of Python subclasses and of wrapped subclasses) and all states of heap and registry", "why_tests_cant": "The copy and the original must be independent in every later history and for every class configuration; a test copies one instance of one class.", "anchors": ["pybindgen/cppclass.py:CppClass._generate_copy_method", "pybindgen/cppclass.py:CppClass._generate_methods", "pybindgen/cppclass.py:CppClass.write_allocate_pystruct", "pybindgen/cppclass.py:CppClass.get_construct_name", "pybindgen/wrapper_registry.py:StdMapWrapperRegistry.write_register_new_wrapper"]}
{"id": "C99", "title": "No call leaves memory or references nobody owns", "statement": "However a call of a wrapped function ends - wrong number or types of arguments, a value refused, an exception of the C++ function, or a result - every C++ object, buffer and Python reference the wrapper acquired for it has been freed, given to the function (where the declaration transfers ownership) or put into the result, exactly once; and nothing is freed that somebody else owns.", "quantifier": "all parameter lists over the parameter types and their direction, ownership and default options, all return types, all arguments given or left out, every way the call can end, at any parameter", "why_tests_cant": "The leaks are on the paths where an argument after the one that acquired something is refused, or the function throws; the combinations of parameter kinds, their order and the failing position are unbounded, and a leak is not visible in the result.", "anchors": ["pybindgen/typehandlers/stringtype.py: StdStringPtrParam, GlibString*Param, CStringReturn", "pybindgen/typehandlers/pyobjecttype.py", "pybindgen/container.py: ContainerPtrParameter, ContainerRefParameter, ContainerReturnValue", "pybindgen/cppclass.py: CppClassRefParameter (out), CppClassPtrParameter, CppClassReturnValue", "pybindgen/typehandlers/base.py: ForwardWrapperBase.generate_body"]}
{"id": "C100", "title": "Virtual methods work across the language boundary", "statement": "A virtual call, from C++ or through a method wrapper in Python, on an object created in C++ runs its C++ final overrider. On an instance of a Python class derived from a wrapped class it runs the override of the nearest Python class that has one, and otherwise the C++ final overrider. An override that calls the method it overrides, with super() or by naming a base class, runs the next override in the Python classes or, after the last of them, the C++ method of the wrapped base class; it never calls itself.", "quantifier": "all class hierarchies and histories of method declarations, all wrapped classes, all chains of Python classes with any overrides calling super any number of times", "why_tests_cant": "What runs depends on which classes of the hierarchy declare the method, their visibility and helper classes, and on an unbounded chain of Python classes; a test has one class with one override.", "anchors": ["pybindgen/cppmethod.py:CppMethod.generate_call", "pybindgen/cppmethod.py:CppVirtualMethodParentCaller.generate_call", "pybindgen/cppmethod.py:CppVirtualMethodProxy.generate", "pybindgen/cppclass.py:CppHelperClass.add_virtual_method", "pybindgen/cppclass.py:CppClass._inherit_helper_class_parent_virtuals"]}
{"id": "C101", "title": "Every spelling of a wrapped type finds that type", "statement": "After a class, enum or container has been added to a module, declaring a parameter or a return value of that type - by value, reference or pointer (for classes kept by a smart pointer, also the smart pointer type), by its full name, with any const, leading '::' and spacing - uses the conversion of exactly that type, whatever other types were or will be added; adding a type never fails because of another type with a different full name; and the generated code names the type by its full name however it was spelled.", "quantifier": "all histories of creating classes, enums and containers, putting them in modules, registering aliases and other handlers; all names; all spellings of a type", "why_tests_cant": "Which handler is found depends on the order in which all types of all modules were created; tests wrap one type per name.", "anchors": ["pybindgen/cppclass.py:CppClass.__init__", "pybindgen/cppclass.py:CppClass.register_alias", "pybindgen/cppclass.py:MemoryPolicy.register_ptr_parameter_and_return", "pybindgen/typehandlers/smart_ptr.py:BoostSharedPtr", "pybindgen/enum.py:Enum.set_module", "pybindgen/container.py:Container.__init__", "pybindgen/container.py:Container.register_alias", "pybindgen/typehandlers/base.py:Parameter.new"]}
{"id": "C102", "title": "Strings cross virtual calls unchanged", "statement": "When C++ calls a virtual method with string parameters and the object has a Python override, the override receives, in order, exactly the characters of every input argument, or is not called if one of them is not text; the characters of the object it returns - text or bytes - are exactly what the C++ caller gets, as return value or in output arguments; the other arguments are unchanged. If the override raises an exception or returns something else, every argument is unchanged and the C++ implementation runs where there is one. Whatever happens, no memory stays allocated, no pointer to freed memory is returned, and an argument whose ownership was transferred is deleted exactly once unless it was passed on.", "quantifier": "all methods with any number of string parameters (std::string and Glib::ustring by value, reference or pointer, char, char *) of every direction and any string return type; all byte contents; all overrides", "why_tests_cant": "The tests override one method with one ASCII string; embedded zeros, bytes that are not UTF-8, failing overrides and several output arguments are never tried, and memory is not observed.", "anchors": ["pybindgen/typehandlers/stringtype.py:StdStringParam", "pybindgen/typehandlers/stringtype.py:StdStringReturn", "pybindgen/typehandlers/stringtype.py:StdStringPtrParam", "pybindgen/typehandlers/stringtype.py:StdStringRefParam", "pybindgen/typehandlers/stringtype.py:GlibStringReturn", "pybindgen/typehandlers/stringtype.py:GlibStringParam", "pybindgen/typehandlers/stringtype.py:CStringReturn", "pybindgen/typehandlers/base.py:ReverseWrapperBase.generate"]}
{"id": "C103", "title": "All non-class values cross virtual calls, in any mixture", "statement": "When C++ calls a virtual method whose parameters and return value are strings, booleans, numbers, containers and Python objects in any mixture, and the object has a Python override, the override receives, in order, the Python value of every input argument and nothing else, or is not called if one of them has none; if the object it returns has a value of the type expected, the C++ caller gets this value, as return value or in the output argument, and every other argument is as it was. If the override raises an exception or returns something else, every argument has the content it had and the C++ implementation runs where there is one. When the call returns, no Python exception is set, no pointer to an object that may be gone is returned, and of every Python object handed over exactly one reference is used up.", "quantifier": "all methods with any number of parameters of these kinds (bool, containers and numbers by value, by reference and by pointer, PyObject * with and without transfer, all string classes) of every direction and any such return type; all argument values; all overrides", "why_tests_cant": "The tests override methods with one or two plain arguments; objects whose truth value raises, refused containers, output containers, failing overrides with transferred objects and exceptions left set are never observed.", "anchors": ["pybindgen/typehandlers/booltype.py:BoolParam", "pybindgen/typehandlers/booltype.py:BoolReturn", "pybindgen/typehandlers/booltype.py:BoolPtrParam", "pybindgen/typehandlers/booltype.py:BoolRefParam", "pybindgen/container.py:ContainerParameter", "pybindgen/container.py:ContainerRefParameter", "pybindgen/container.py:ContainerReturnValue", "pybindgen/typehandlers/pyobjecttype.py:PyObjectParam", "pybindgen/typehandlers/pyobjecttype.py:PyObjectReturnValue", "pybindgen/typehandlers/floattype.py:FloatPtrParam", "pybindgen/typehandlers/base.py:ReverseWrapperBase.generate"]}
{"id": "C104", "title": "A class imported from another module is that module's class", "statement": "When a module declares a class with import_from_module, then after both modules are imported the class is, in every wrapper of the importing module, the very same Python type that the other module shows under that name: objects pass between the modules, classes derived from it in the importing module are found when the other module narrows types, and both use the same registry of wrappers. If the other module or the class cannot be found, the import of the importing module fails.", "quantifier": "all pairs of extension modules with any number of classes, submodules, typedefs and settings, and all histories of loading other modules before, between and after them", "why_tests_cant": "Needs two separately built extension modules; the test suite builds one and has its only imported class commented out. Missing names, nested classes, prefixes and load orders multiply.", "anchors": ["pybindgen/cppclass.py:CppClass._generate_import_from_module", "pybindgen/cppclass.py:CppClass.generate", "pybindgen/cppclass.py:CppClass.get_python_name", "pybindgen/cppclass.py:CppClass._register_typeid", "pybindgen/wrapper_registry.py:StdMapWrapperRegistry.generate_import", "pybindgen/wrapper_registry.py:StdMapWrapperRegistry.generate", "pybindgen/module.py:ModuleBase.do_generate"]}
{"id": "C105", "title": "Types have the bases that were declared", "statement": "Importing a generated module succeeds, and afterwards the __bases__ of the type of every wrapped class are exactly the types of the base classes it was declared with, in order, or object alone; base classes may be in the same module, in other submodules or imported from other modules.", "quantifier": "all trees of modules and submodules, all classes with any number of bases, nested classes, typedefs and imported classes, and all states of the interpreter in which the imported types exist", "why_tests_cant": "Which type is made ready before which depends on the order of declarations over the whole tree of modules; a lost base shows only when isinstance or an inherited method is used on it.", "anchors": ["pybindgen/cppclass.py:CppClass.generate", "pybindgen/cppclass.py:CppClass._generate_import_from_module", "pybindgen/cppclass.py:CppClass.generate_typedef", "pybindgen/module.py:ModuleBase.do_generate", "pybindgen/module.py:ModuleBase.add_typedef"]}
{"id": "C106", "title": "The helper class of a subclassable class is complete C++", "statement": "Whenever the helper class of a class with virtual methods is written, every virtual override and static wrapper it declares is defined exactly once and nothing else is defined; it overrides every virtual method that can be converted, and all the pure virtual ones; every inherited implementation Python can call is reached with the arguments in order; and no two of its member functions clash. If a pure virtual method cannot be overridden, no helper class is written and the class is marked as not constructible.", "quantifier": "all sequences of virtual methods, in all combinations of overloads, constness, visibility, purity and failing type conversions, and all error handlers", "why_tests_cant": "Code is generated twice for the declaration and once for the definition, with an error handler that decides what to skip; a disagreement shows only as a compile or link error for particular combinations of methods.", "anchors": ["pybindgen/cppclass.py:CppHelperClass", "pybindgen/overloading.py:OverloadedWrapper.generate_class_declaration", "pybindgen/cppmethod.py:CppVirtualMethodParentCaller", "pybindgen/cppmethod.py:CppVirtualMethodProxy"]}
{"id": "C107", "title": "Iterating an instance of a class with container traits shows exactly its elements", "statement": "For a class with container traits, iter(obj) succeeds for every usable instance, and the calls of next() on the iterator give each element of the C++ object once, in order (for mappings the pair of key and value), and then StopIteration for good, without undefined behaviour, whatever other iterators, wrappers and objects do in between; the iterator keeps the instance alive, and every reference it takes is given back.", "quantifier": "all histories of creating, copying, returning, transferring and destroying wrappers and C++ objects interleaved with any number of iterators over them, all element and key types, all names of begin/end methods", "why_tests_cant": "The order in which iterators, wrappers and C++ objects are used and die is chosen by the program; a test sees one order, and a dangling C++ iterator usually seems to work.", "anchors": ["pybindgen/cppclass_container.py:CppClassContainerTraits", "pybindgen/cppclass_container.py:IterNextWrapper", "pybindgen/cppclass.py:CppClass.add_container_traits"]}
{"id": "C108", "title": "Virtual calls into Python leave the object and its wrapper as they were", "statement": "While the Python override of a virtual method runs, its self designates the C++ object the call was made on. However the call ends - no override, a parameter or result that cannot be converted, an exception, success - the wrapper then designates what it did before, and the GIL, the reference to the method, the result and temporary wrappers have been given back exactly once; calls may be nested to any depth, and making them changes neither who frees an object nor when.", "quantifier": "all virtual methods, parameter and return handlers, all outcomes, all histories of creating, copying, transferring and destroying objects with virtual calls nested in any way", "why_tests_cant": "Every conversion adds exits to the proxy, and what an override does before it returns, including further virtual calls on the same object, is up to the program.", "anchors": ["pybindgen/cppmethod.py:CppVirtualMethodProxy.generate", "pybindgen/cppmethod.py:CppVirtualMethodProxy.generate_python_call", "pybindgen/typehandlers/base.py:ReverseWrapperBase.generate"]}
{"id": "C109", "title": "Methods handed on to a derived class keep what they were declared with", "statement": "When a class gets a base's method as its own (because it defines an overload of the same name, or has several bases), calling it on the derived class does what the declaration in the base says: the same arguments, C++ call and result, the same exceptions translated, the same objects kept alive, the same treatment of threads and the same deprecation warning.", "quantifier": "all declarations of methods with all options, all classes they are handed on to, all states of the code generator", "why_tests_cant": "The copy is made from a subset of the options; which options matter shows only for methods that combine them with overloading or several bases.", "anchors": ["pybindgen/cppmethod.py:CppMethod.clone", "pybindgen/cppmethod.py:CppMethod.__init__", "pybindgen/cppmethod.py:CppMethod.generate_call", "pybindgen/cppclass.py:CppClass._add_method_obj", "pybindgen/cppclass.py:CppClass._generate_MI_parent_methods", "pybindgen/cppclass.py:scan_custodians_and_wards"]}
{"id": "C110", "title": "Objects kept by shared pointers live exactly as long as something holds them", "statement": "For a class with memory_policy=BoostSharedPtr or StdSharedPtr, an object is alive exactly while C++ code or a live Python wrapper holds a shared pointer to it, and is destroyed once, when the last of them lets go; a returned shared pointer gives Python a live wrapper of the object returned, the same one as before while Python has one, and None for an empty pointer.", "quantifier": "all histories of creating, returning, passing, keeping, calling overrides with, clearing and dropping objects, on the C++ and the Python side", "why_tests_cant": "The use counts depend on the order of events across both languages and on when the garbage collector runs.", "anchors": ["pybindgen/typehandlers/smart_ptr.py:BoostSharedPtr", "pybindgen/typehandlers/smart_ptr.py:CppClassSharedPtrParameter", "pybindgen/typehandlers/smart_ptr.py:CppClassSharedPtrReturnValue", "pybindgen/cppclass.py:common_shared_object_return", "pybindgen/cppclass.py:CppClass._get_delete_code", "pybindgen/cppclass.py:CppClass._generate_gc_methods", "pybindgen/cppclass.py:CppClass._generate_destructor", "pybindgen/wrapper_registry.py:StdMapWrapperRegistry"]}
{"id": "C111", "title": "Python shows the docstring that was given", "statement": "The __doc__ of a wrapped function, method, class or module is exactly the docstring the user gave; if none was given, a function and a class show their signatures, and a module has none. A set of overloads shows the docstring of the overload that has one, and refuses overloads whose docstrings disagree.", "quantifier": "all docstrings (any characters), names, parameter lists, overload sets and constructors", "why_tests_cant": "The docstring is pasted into a C string literal, so what Python shows depends on how the C compiler reads every possible text.", "anchors": ["pybindgen/function.py:Function.get_py_method_def", "pybindgen/function.py:Function.generate_docstring", "pybindgen/cppmethod.py:CppMethod.get_py_method_def", "pybindgen/overloading.py:OverloadedWrapper.get_py_method_def", "pybindgen/cppclass.py:CppClass.generate_docstring", "pybindgen/cppclass.py:CppClass._generate_type_structure", "pybindgen/module.py:ModuleBase.do_generate"]}
{"id": "C112", "title": "Python expressions with operators compute what C++ computes", "statement": "For wrapped objects, a op b, -a and the comparisons give, in Python, the result of the registered C++ operator whose operand types fit, leave the operands unchanged, and raise TypeError if no registered operator fits (== and != compare identities then); after a op= b the object a has the value that C++ gives it.", "quantifier": "all sequences of operator registrations on all classes of a hierarchy, all operands, and all meanings of the C++ operators", "why_tests_cant": "Which registration runs depends on the interplay of inherited slots, reflected operators and registration order for every pair of operand types.", "anchors": ["pybindgen/cppclass.py:CppClass.add_binary_numeric_operator", "pybindgen/cppclass.py:CppClass.add_inplace_numeric_operator", "pybindgen/cppclass.py:CppClass.add_unary_numeric_operator", "pybindgen/cppclass.py:CppClass.add_binary_comparison_operator", "pybindgen/cppclass.py:CppClass._generate_number_methods", "pybindgen/cppclass.py:CppClass._generate_tp_richcompare"]}
{"id": "C113", "title": "Importing a module binds exactly the declared names", "statement": "After a generated module is imported, every declared function, class, container, exception, typedef, enum constant and submodule is found under its declared Python name in the module (or, if declared inside a class, in that class) and is that very thing with its C++ value; there are no other names than these, the members of classes, iterator types and hidden pointers; and submodules can be imported by name.", "quantifier": "all trees of modules with any declarations of all kinds, both Python versions, all initial states of the interpreter", "why_tests_cant": "Names of different kinds share one namespace and are bound by statements in a fixed order; which binding survives depends on the whole set of declarations.", "anchors": ["pybindgen/module.py:ModuleBase.do_generate", "pybindgen/module.py:ModuleBase.add_typedef", "pybindgen/cppclass.py:CppClass.generate", "pybindgen/cppclass.py:CppClass.generate_typedef", "pybindgen/cppclass_container.py:CppClassContainerTraits.generate", "pybindgen/container.py:Container.generate", "pybindgen/cppexception.py:CppException.generate", "pybindgen/enum.py:Enum.generate"]}
{"id": "C114", "title": "Static attributes are the static variables of C++", "statement": "A static attribute of a wrapped class, read or assigned through the Python class, through a wrapped class derived from it, through a Python class derived from either or through an instance, is the C++ variable which that name means in the class: reading gives its value at that moment, assigning changes exactly that variable, a const one is refused, and nothing else a Python program does changes it; declaring static attributes does not restrict deriving in Python, and other assignments to class attributes behave as usual.", "quantifier": "all sets of classes with any bases and static attributes registered after their bases, all histories of reads, assignments, class statements, changes by C++ and evictions from the lookup cache", "why_tests_cant": "Which metaclass a class gets depends on the whole chain of bases, and what is found on the history of lookups and assignments.", "anchors": ["pybindgen/cppattribute.py:PyMetaclass.generate", "pybindgen/cppattribute.py:PyGetSetDef.generate", "pybindgen/cppclass.py:CppClass.generate", "pybindgen/cppclass.py:CppClass.add_static_attribute"]}
{"id": "C115", "title": "Histories in which Python overrides return objects keep every object sound", "statement": "In every history of calls in both directions in which Python overrides of virtual methods return objects of wrapped classes to C++ (what a single such call gives its caller is C95), no object is freed twice or leaked, no freed object or null pointer is used, references are the ones held, Python objects go on referring to the objects C++ believes they do, and the object C++ gets is of the class of the object the override returned; objects that are not instances of the class, and only those, are refused without effect.", "quantifier": "all classes (with and without reference counting, copyable or not, smart pointers), all return types, all Python objects returned, all histories of events and overrides", "why_tests_cant": "Whether the pointer handed to C++ stays valid depends on who else owns the object and on everything that happens afterwards.", "anchors": ["pybindgen/cppclass.py:CppClassPtrReturnValue.convert_python_to_c", "pybindgen/cppclass.py:CppClassReturnValue.convert_python_to_c", "pybindgen/cppclass.py:CppClassRefReturnValue.convert_python_to_c", "pybindgen/typehandlers/smart_ptr.py:CppClassSharedPtrReturnValue.convert_python_to_c", "pybindgen/typehandlers/base.py:ReverseWrapperBase.generate"]}
{"id": "C116", "title": "Modules divided into sections compile and link", "statement": "However the functions, classes, containers, exceptions and submodules of a project are divided into sections, and also if they are not, the common header, the main file and the section files fit together: in every file every generated C symbol is declared before it is used and defined at most once, no symbol has external definitions in two files, every symbol that is used is defined, and each file includes the common header exactly once, first. Dividing only moves code between files: the same declarations, definitions and uses are written as into one file. Generation fails only if two containers have the same C type.", "quantifier": "all projects (any tree of submodules, any number of functions, overloads, classes, bases, containers, exceptions, converters), all assignments of sections, all settings of prefix and wrapper registry", "why_tests_cant": "The example modules use one division into sections each; whether a shared converter, a registry or a type declared in one file is visible in all the others depends on the whole project and on the order in which its parts are generated.", "anchors": ["pybindgen/module.py:_MultiSectionSinkManager", "pybindgen/module.py:Module.do_generate", "pybindgen/module.py:Module.generate_forward_declarations", "pybindgen/module.py:Module.generate_python_to_c_type_converter", "pybindgen/cppclass.py:CppClass.generate_forward_declarations", "pybindgen/cppclass.py:CppClass.generate", "pybindgen/container.py:Container.generate_forward_declarations", "pybindgen/wrapper_registry.py:StdMapWrapperRegistry", "pybindgen/cppattribute.py:PyMetaclass", "pybindgen/overloading.py:OverloadedWrapper.generate"]}
{"id": "C117", "title": "The garbage collector clears exactly what is no longer in use", "statement": "Python's cyclic garbage collector works with wrappers, instances of Python subclasses, iterators and any other objects: no object is visited more often than it is referred to; no object that Python or C++ still uses (C++ holding the C++ part of a Python subclass instance counts as use of the Python part) is cleared; every object that is not in use any more is cleared, and after that nothing refers to it, so it is freed together with its C++ part; all other objects are left as they are. An object is never released twice.", "quantifier": "all histories of constructing, wrapping, iterating, referring, transferring ownership, holding from C++, freeing and collecting, all object graphs, all memory policies", "why_tests_cant": "A test builds one cycle and calls gc.collect() once; a wrong visit only shows as lost or leaked objects for particular graphs, reference counts and moments of collection.", "anchors": ["pybindgen/cppclass.py:CppClass._generate_gc_methods", "pybindgen/cppclass.py:CppClass._generate_destructor", "pybindgen/cppclass.py:CppClass._get_delete_code", "pybindgen/cppclass.py:CppHelperClass.generate", "pybindgen/container.py:Container._generate_gc_methods", "pybindgen/cppclass_container.py:CppClassContainerTraits._generate_gc_methods"]}
{"id": "C118", "title": "Instances of templates are recognised, called and named", "statement": "When headers are scanned, every explicit instance of a function or method template, and nothing else, is recognised as such; its template parameters are its template arguments, the generated call names exactly that instance, and it is bound in Python under the name its template_instance_names annotation gives for these arguments, or else under a name made from the template and its arguments. Functions and methods that are no template instances are called and bound by their own name.", "quantifier": "all demangled names (any return type, qualification, argument list with nested templates), all annotations", "why_tests_cant": "The tests contain a few templates with one simple argument; whether the text is taken apart at the right places depends on all the names and types around it.", "anchors": ["pybindgen/castxmlparser.py:check_template", "pybindgen/castxmlparser.py:get_template_arg", "pybindgen/castxmlparser.py:ModuleParser._scan_class_methods", "pybindgen/castxmlparser.py:ModuleParser._scan_namespace_functions", "pybindgen/function.py:Function.generate_call", "pybindgen/utils.py:get_mangled_name"]}
{"id": "C119", "title": "A divided script registers every class in the right section, after its bases", "statement": "When headers are scanned into a script divided into sections, every class is registered in the section with the highest precedence number among those of its own declaration and of its template arguments, for every classifier; and when the sections are run, every class is registered after its base classes.", "quantifier": "all lists of sections, all classifiers and precedences, all namespace trees of classes, all base relations, all template arguments", "why_tests_cant": "The tests have no divided script; whether it runs depends on how sections, precedences and class hierarchies of a project fit together.", "anchors": ["pybindgen/castxmlparser.py:ModuleParser._get_pygen_sink_for_definition", "pybindgen/castxmlparser.py:ModuleParser._scan_namespace_types", "pybindgen/castxmlparser.py:PygenClassifier", "pybindgen/castxmlparser.py:PygenSection"]}
{"id": "C120", "title": "A declaration belongs to the module iff its file does", "statement": "When headers are scanned, the declarations that are bound are exactly those in one of the given header files or in a file inside one of the whitelisted directories, however the paths are written (relative or absolute, with `.`, `..` or repeated slashes).", "quantifier": "all working directories, header lists, whitelists and file names", "why_tests_cant": "The tests parse single headers with simple paths; path texts and directory trees are unbounded.", "anchors": ["pybindgen/castxmlparser.py:ModuleParser.__location_match", "pybindgen/castxmlparser.py:ModuleParser.parse_init"]}
{"id": "C121", "title": "Containers used in headers are registered", "statement": "When headers are scanned, every standard container used by the parameters, results or members of scanned functions and classes (anonymous ones if these are enabled) is registered exactly once, with operations it has, after the types of its elements, if these are registered at all; nothing else is registered as a container; and the script that is written registers the same containers.", "quantifier": "all trees of namespaces, classes and functions, all uses of containers in them, all kinds and nestings of containers", "why_tests_cant": "The tests use a few containers in one namespace; whether elements are known in time depends on how namespaces, classes and uses are spread over the headers.", "anchors": ["pybindgen/castxmlparser.py:ModuleParser._register_container", "pybindgen/castxmlparser.py:ModuleParser._scan_namespace_types", "pybindgen/container.py:container_traits_list"]}
{"id": "C122", "title": "The annotations of a class give its options", "statement": "When headers are scanned, each annotation of a class sets the option it names, whatever other annotations there are and in whatever order they are written; bad truth values are refused and unknown annotations reported; a class annotated as an exception is registered as an exception; and a class with virtual methods can be subclassed in Python unless it is annotated otherwise or its destructor is private.", "quantifier": "all annotations in all orders, all classes and hierarchies", "why_tests_cant": "The tests annotate a few classes with one or two annotations each; combinations, orders and hierarchies are unbounded.", "anchors": ["pybindgen/castxmlparser.py:ModuleParser._apply_class_annotations", "pybindgen/castxmlparser.py:ModuleParser._class_has_virtual_methods", "pybindgen/cppexception.py:CppException.__init__", "pybindgen/cppclass.py:CppClass.__init__"]}
{"id": "C123", "title": "Hand-written wrappers are used as given", "statement": "A wrapper written by hand and registered with add_custom_function_wrapper or add_custom_method_wrapper appears in the output exactly as given (or is declared, if no text is given); under its Python name there is one main wrapper that tries it and the other overloads in the order of their registration, each by its own C name; and the parameters of the main wrapper, its declaration, the arguments it passes on and the flags in the method table are all those of the flags given.", "quantifier": "all overload sets mixing any number of hand-written and generated wrappers, with or without text, all flags, all error handlers, all stack depths", "why_tests_cant": "The tests contain one hand-written function and one hand-written method, both with a text and with the default flags; sets, orders and flags are unbounded.", "anchors": ["pybindgen/function.py:CustomFunctionWrapper", "pybindgen/cppmethod.py:CustomCppMethodWrapper", "pybindgen/overloading.py:OverloadedWrapper.generate", "pybindgen/overloading.py:OverloadedWrapper.generate_declaration", "pybindgen/typehandlers/base.py:ForwardWrapperBase.reset_code_generation_state"]}
{"id": "C124", "title": "str() shows what the C++ stream operator writes", "statement": "str() of a wrapped object is the text that the C++ output stream operator of its class writes for it, or, if its class has none registered, that of the nearest class it inherits one from; if neither the class nor any of its bases has one, it is repr().", "quantifier": "all class hierarchies (any depth, one or several bases), all sets of classes with add_output_stream_operator, all objects (initialised or not), all texts written", "why_tests_cant": "The tests print one object of a class without bases; hierarchies, objects and texts are unbounded.", "anchors": ["pybindgen/cppclass.py:CppClass.add_output_stream_operator", "pybindgen/cppclass.py:CppClass._generate_str", "pybindgen/pytypeobject.py:PyTypeObject.generate"]}
{"id": "C125", "title": "Scanned wrappers catch the exceptions their declarations name", "statement": "A function, method or constructor scanned from a header is registered (and written to the generated script) with exactly the exceptions that its C++ exception specification or its throw annotation names, in that order and however the exception types are spelled; a type that is not a registered exception is reported.", "quantifier": "all declarations, all exception specifications and throw annotations, all spellings of the types, all contents of the module", "why_tests_cant": "The tests scan a header with two exception classes, named in one way; specifications, spellings and modules are unbounded.", "anchors": ["pybindgen/castxmlparser.py:ModuleParser._get_calldef_exceptions", "pybindgen/castxmlparser.py:ModuleParser._get_annotation_exceptions", "pybindgen/castxmlparser.py:ModuleParser._scan_class_methods", "pybindgen/castxmlparser.py:ModuleParser._scan_namespace_functions"]}
{"id": "C126", "title": "Functions added as methods are called with the object", "statement": "A function added to a class as a method can be called in Python under its chosen name (its own name if none was chosen) on every instance of the class and of its derived classes; the call reaches exactly that C++ function, with the object as first argument and the Python arguments after it, unless a method or function added earlier under the same name takes these arguments. Only functions whose first parameter is of that class are accepted.", "quantifier": "all classes, all sequences of methods and functions added, all parameter lists, all names, namespaces and template arguments, all calls", "why_tests_cant": "The tests add three functions with custom names to one class without several bases; classes, names, overloads and calls are unbounded.", "anchors": ["pybindgen/cppclass.py:CppClass.add_function_as_method", "pybindgen/cppclass.py:CppClass._add_method_obj", "pybindgen/cppclass.py:CppClass._generate_methods", "pybindgen/function.py:Function.clone", "pybindgen/function.py:Function.get_custom_name", "pybindgen/overloading.py:OverloadedWrapper.generate"]}
{"id": "C127", "title": "Trying out a wrapper leaves no trace", "statement": "However often the generator has tried out a function or method wrapper - to learn its flags, to declare it in advance, or in an attempt that failed - the definition it writes is the one written if it is generated once, the forward declaration and the method table entry agree with that definition, and a wrapper that cannot be generated fails the same way every time. Started afresh, a wrapper is as new.", "quantifier": "all wrappers with any parameters, return values and hooks whose handlers look only at the wrapper and at what handlers before them stored in the same run; all histories of asking for flags, declaring, defining and starting afresh", "why_tests_cant": "The tests compile what one fixed sequence of uses generates; handlers, wrappers and sequences are unbounded.", "anchors": ["pybindgen/typehandlers/base.py:ForwardWrapperBase.generate_body", "pybindgen/typehandlers/base.py:ForwardWrapperBase.get_py_method_def_flags", "pybindgen/typehandlers/base.py:ForwardWrapperBase.reset_code_generation_state", "pybindgen/typehandlers/base.py:ForwardWrapperBase._init_code_generation_state", "pybindgen/function.py:Function.generate", "pybindgen/function.py:Function.generate_declaration", "pybindgen/cppmethod.py:CppMethod.generate", "pybindgen/cppmethod.py:CppVirtualMethodParentCaller.generate_declaration"]}
