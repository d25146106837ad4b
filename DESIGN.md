# Formal model of pybindgen in Lean 4 — design

## Method

Shallow embedding: every Python function modelled becomes a Lean function that mirrors it
branch by branch.  Objects with mutable fields become structures, methods become state
transformers.  Python exceptions are values of `PyRes` (`ok`/`err` with the exception class).
Python `str` is `List Char` (abbreviation `Str`), so that theorems about text quantify over every
string.  Where pybindgen's *output* (C code) has behaviour a user relies on, the output fragment
is modelled as an operational semantics of the emitted statements and the theorem is about
executions.

Layout (`lean/Verif/`):

* `X/Model.lean`  – definitions, each with a comment citing file and lines in /repo
* `X/Spec.lean`   – small independent specification used in the statements (when one is needed)
* `X/Props.lean`  – property theorems, helper lemmas above them, non-vacuity `example`s beside them

## Plan per property

| property | modelled | proof |
|---|---|---|
| C01, C02 | `CodeSink`, `MemoryCodeSink`, `FileCodeSink` as state machines over operation lists | induction over operation sequences; spec = sum of open indents computed by a separate function on histories |
| C03, C04, C05 | `CodeBlock` with cleanup dict, predecessor chain | invariant (keys ≤ last position, sorted); refinement to a spec stack of (handle, code, cancelled) ; C04 is false with `clear()` : counterexample + partial |
| C06, C07 | `ParseTupleParameters` | induction on items, iff-characterisation of each outcome |
| C08 | `BuildValueParameters` | induction |
| C09, C10, C11 | `DeclarationsScope`, `join_ctype_and_name` | C09 is false in general (`foo`,`foo`,`foo2`): counterexample, and partial under an explicit hypothesis on base names |
| C12 | tokenizer with fuel-free step function | C12 termination is false for unterminated comments: counterexample; termination + losslessness for the rest |
| C13–C17 | `ctypeparser` on token trees | induction on token lists and trees |
| C18–C21 | `TypeMatcher` | state machine; termination by decreasing set of untried names; C20 false: counterexample |
| C22–C25 | `OverloadedWrapper`, `vector_counter` | induction; semantics of emitted dispatcher |
| C26, C27 | `mangle_name` | C27 false: counterexample |
| C28 | `call_with_error_handling` | case analysis for all callables/handlers |
| C29–C32 | `Module` | state machine over trees |
| C33–C37 | `CppClass` hierarchy | well-founded recursion on finite hierarchies |
| C38 | std::map registry | refinement to partial map |
| C39 | integer handlers | exact accepted set for every `Int` |
| C40–C44 | `ForwardWrapperBase`, `ReverseWrapperBase` | operational semantics of generated statement lists |
| C45, C46 | memory policies, custodians | state machine |
| C47 | `param`/`retval` spec parsing (utils.py) | case analysis over every spec tuple; a nameless spec is accepted: counterexample |
| C48 | the dispatcher emitted for overloads | operational semantics of the try-each-in-turn C function, induction on the overloads |
| C49–C51 | `Module` registration, function names, sections | state machine over histories of calls |
| C52–C55 | memory-policy, helper-class and type-narrowing inheritance | recursion on hierarchies |
| C56 | return values of Python overrides | semantics of the reverse wrapper's parse step |
| C57–C59 | C++ names, Python names, C symbols of classes, functions, enums, exceptions | string lemmas; symbol uniqueness is false: counterexamples |
| C60–C63 | container converters and iterators (container.py) | semantics of the emitted loops over Python lists/dicts, for every element conversion |
| C64, C65, C68 | type slots, slot assembly, method table | exact content for every configuration |
| C66 | instance struct layout | prefix relation on member lists, by recursion on the hierarchy |
| C67 | sequence protocol templates (pytypeobject.py) | semantics of the C templates for every index and outcome |
| C70–C72 | virtual method proxies, error handling of wrappers | all executions of the generated proxy |
| C73, C74 | exceptions, order of generation and import | all executions; ordering lemma over module trees |
| C69 | methods inherited from several bases | invariant over the collecting loop; look-up relation against pointer positions |
| C75–C79 | attributes: table, names, reading, assigning, deleting | heap of shared `ReturnValue` objects; all executions of getters and setters |
| C80 | class arguments from Python | statements and expressions of the handlers as syntax trees, rendered into the wrapper and executed on a model of Python objects and C++ addresses |
| C81 | class arguments to Python overrides | instructions executed on the memory model of C45 with reference counts of wrappers; any number of kept references, success or failure |
| C82 | castxmlparser's class scheduling loop (postponed classes) | state machine over any declaration graph; termination and order invariants |
| C83, C84 | reading annotations from source lines; what each annotation does | functions over lines and declarations; exact effect of every annotation, unknown ones warned about |
| C85–C87 | the Python script written by the parser: texts of calls, replay, nesting | the script is a list of calls read back by an interpreter; refinement to the in-memory module |
| C88, C89 | members of classes, constructors and copyability | loop over declarations, compared with a declaration-level specification |
| C90–C93 | string, bool, array, container and `PyObject*` handlers as data (`Wrapper/Desc`, `Values`) | handlers as templates executed by `execD` under concrete meanings of units and expressions |
| C94 | class return values (value, reference, pointer, smart pointer) | instructions on the memory model of C45, all options; texts tied to `Wrap` |
| C95 | class values returned by Python overrides | the same model with reference counts |
| C96 | converter functions (`PyObject → C`, `C → PyObject`) | generated texts as statements; run-time model with ledger of references; sink state machine for "defined once" |
| C97 | `tp_init`/`tp_new` of wrapped classes, helper constructors | constructor selection and its code on the memory model of C45 |
| C98 | `__copy__` | the generated body on the memory model of C45, refinement to its event `pyCopy` |
| C99 | a ledger of what each statement of the handlers acquires and gives away | computed from the handler templates; sum is zero at every way the call can end |
| C100 | evaluation of virtual calls between C++ and Python over declared methods, helper classes, proxies, method tables | equivalence with the trace by induction over the chain of Python classes; recursion excluded by induction over the evaluation |
| C101 | registrations of classes, enums, containers and smart pointers, replayed on the registry of C18 | bindings never change; origin of every binding by induction over the history; normal forms of names are injective |
| C102 | reverse fragments of all string handlers, text of the body, execution on bytes with a heap of leaked blocks and dangling pointers | generated text = text of a plan (induction over parameters); execution of the plan = closed form |
| C103 | reverse fragments of bool, container, PyObject and number handlers beside strings; execution with references, pending exceptions, converter effects | as C102; per handler a record of what it does in each phase (`Runs`), then induction over the list of handlers |
| C104 | init functions of whole module trees as statement lists; interpreter with several extensions (module attributes, pointer variables, type maps) | frame lemmas per statement; unique writers of attributes and pointers; induction over the statements and the list of extensions |
| C105 | the same, with tp_base, tp_bases and PyType_Ready | invariant over the list of initialisation events |
| C106 | the helper class as a list of member functions, two generation phases over overload sets and overrides with state and error handler | idempotence of the overload normalisation; induction over sets and overrides; permutation of declarations and definitions |
| C107 | cppclass_container.py statement by statement; iterators added to the process of C45, C++ iterators with object, version and position | generated text from `generateBody_stages`; invariant on iterators, references and wrappers over all histories; ownership from the accounting invariant of C45 |
| C108 | the proxy of C70 with handlers under a contract; virtual calls as nested histories over the process of C45 | `Disciplined` operations and the release theorem of C42; nested histories equal the flattened ones by mutual induction, with the ownership invariant |
| C109 | `CppMethod.__init__`, `clone`, `generate_call`, custodian scanning, the wrapper as in C41-C46 | equality of method objects, hence of generated wrappers; counterexamples by evaluation |
| C110 | smart pointer policies, `tp_clear`, `tp_dealloc`, `__init__`, returns and parameters of shared pointers, in both directions, registry | balance invariant of use counts over all histories, with local shared pointers as credit; registry invariant |
| C111 | `get_py_method_def` of functions, methods, overload sets and parent callers, `generate_docstring`, `tp_doc`, module doc; and a reader of C string literals and method table entries | reader automaton: length bound (a literal never reads longer than its text), exactness by induction on the text |
| C112 | CPython's `binary_op1`, `binary_iop1`, `PyNumber_Negative`, `do_richcompare` calling the generated operator functions; slot inheritance; objects with identity | tables by induction over registrations (C36), slots as first class of the hierarchy with registrations, then case analysis of the protocols |
| C113 | statements of the init functions of a tree of modules that bind names: function table, classes, iterators, containers, exceptions, typedefs, enums, submodules; namespaces as maps, `sys.modules` | the set of bindings of the statements is that of the declarations (mutual induction over the tree), running statements gives one binding per name (invariant for `PyType_Ready`) |
| C114 | statements that set up metaclasses and bases in the module's initialisation, `PyType_Ready`, attribute access on type objects with the lookup cache, `class` statements | induction over the classes (invariant of the type structures), invariant over histories (dictionaries of metaclasses never change, the cache agrees with them) |
| C115 | statements of `convert_python_to_c` of the four class return handlers as a syntax tree, rendered and executed on the state of C45 with contents and dynamic classes | exact effect by cases over the class, then the balance invariant of C45 over histories in which overrides return objects |
| C116 | the order in which header, main file and section files receive includes, declarations, definitions and uses of symbols (`Module.do_generate` and what it calls) as a state machine | invariant over the whole generation (what is used is declared in the header or further up; one-time definitions), counting of definitions, simulation between divided and undivided output |
| C117 | tp_traverse, tp_clear, what is tracked, m_pyself and ownership as an object graph with reference counts; CPython's collection algorithm | invariant over all histories (owners of helper instances), counting visits against references, induction over reachability both ways |
| C118 | check_template, get_template_arg as loops over the demangled text; instance names; names in call and in Python | induction over texts (first occurrence, balanced brackets), round trip of split and join, invariant of the annotation scanner |
| C119 | choice of the section of a class, sort of (precedence, sink) pairs; execution of the divided script from C87 | maximum of a fold, order of the sections' blocks in the run, rank of sections |
| C120 | location filter, abspath/normpath/join on texts | walks over components, injectivity of absolute texts, prefixes of texts as relation of places |
| C121 | queue of containers, _register_container, scan of namespaces; script lines and their execution | scan as a fold over the events, invariant (tried names, order, script), once tried never again |
| C122 | _apply_class_annotations as a loop over the dictionary; keyword check of add_exception; allow_subclassing over hierarchies | composition of single steps, permutation invariance, induction over class trees |
| C123 | CustomFunctionWrapper, CustomCppMethodWrapper and OverloadedWrapper.generate/generate_declaration/get_py_method_def with the state of the wrappers (meth_flags, force_parse); Python recursion as fuel | invariants over the state through two generation passes, induction over the overloads |
| C124 | add_output_stream_operator, _generate_str, the tp_str slot and its inheritance by PyType_Ready over the hierarchy of Hierarchy.lean; UTF-8 as any codec with a round trip law | induction over the hierarchy; a concrete diamond-free hierarchy with two bases for the counterexample |
| C125 | _get_calldef_exceptions and _get_annotation_exceptions over the type parser of C12-C16, and the scanner of C84/C88 that uses them | the traits theorems of C16 on the normal form of each spelling; case analysis of the scanner |
| C126 | _add_method_obj for functions, the wrappers' parameters and call, the method table, overload dispatch and linking of C names; Function.clone | invariant of the method table over all histories of additions (keys distinct, entries in order); induction along the overloads tried |
| C127 | ForwardWrapperBase: its fields, generate_body, reset, get_py_method_def_flags; generate and generate_declaration of functions and methods; ReverseWrapperBase and overrides (TrialOverride.lean); the settings an overload set changes (TrialOverloads.lean); constructors (TrialConstructors.lean); calls with catch clauses, templates and without results (TrialCallsProps.lean); handlers are arbitrary state transformers | noninterference of the handlers' remembered names composed along generate_body, reset of any framed state is the initial state, invariant over all histories |

## Files of /repo and where they are modelled

| /repo/pybindgen | model (lean/Verif/) | not modelled |
|---|---|---|
| typehandlers/codesink.py | CodeSink | file system errors |
| typehandlers/base.py | CodeBlock, Params, DeclScope, Matcher, Wrapper/Forward, Wrapper/Reverse | GIL macros are opaque texts |
| typehandlers/ctypeparser.py | CType | – |
| typehandlers/inttype.py, booltype.py, floattype.py, voidtype.py | Wrapper/IntRange, Forward, Reverse, Exec | arrays of `unsigned int` (the generated code does not compile) |
| typehandlers/stringtype.py, pyobjecttype.py | Wrapper/Desc, Values, StringProps, ValueProps, Ledger | directions of reverse wrappers only through the contract `OpsIn` |
| typehandlers/smart_ptr.py | Handlers/Args (parameter), Handlers/Returns (return), Runtime/Lifetime (policy), Runtime/Shared (C110) | texts of shared pointers as parameters of overrides |
| converter_functions.py | Wrapper/Converter* | – |
| overloading.py | Overload | – |
| utils.py | Utils, Names | `write_preamble` text |
| module.py | Module, Exceptions/Order | text of `PyInit` functions |
| function.py | Wrapper/Forward, Wrapper/Flags, Names | CustomFunctionWrapper |
| cppmethod.py | Wrapper/Forward, Reverse, Proxy, CppClass/Methods | clone of constructors |
| cppclass.py | CppClass/* (with Construct, Copy), Handlers/* (parameters, returns, callbacks), Runtime/*, Slots/*, Names | see the notes of C33–C38, C45, C46, C66 |
| container.py | Container | – |
| enum.py | Names, Exceptions/Order | – |
| cppexception.py | Exceptions | – |
| cppattribute.py, cppcustomattribute.py | Attributes | text of the table |
| pytypeobject.py | Slots | mapping protocol |
| wrapper_registry.py | Runtime/TypeMap, Runtime/RegistryProps | – |
| castxmlparser.py | Parser/Schedule, Annotations, Lookup, Members, Notes, Pygen, Replay, Structure | reading of the XML (pygccxml's declaration objects are the input), containers (`_register_container`), `type_annotations` of templates |
| gccxmlparser.py, settings.py, deprecation | – | the older parser is the same algorithm for another tool; settings are parameters of the model |

## Vocabulary of the statements

* `Flow.Path body t`: `t` is an execution of the generated C function body — the statements run,
  conditions tested (`passed`: false; `left`: true, and the function is left there), resources acquired
  (`took`) and cleanups done.  Theorems about generated wrappers quantify over every `t`.
* `OpsIn P g`: whatever the generator step `g` (a type handler, a hook) writes satisfies `P`.  It is the
  contract under which theorems about wrappers hold for *any* handler; for the handlers modelled it is a
  lemma, not an assumption.
* `Lang`: an arbitrary interpretation of format units and C expressions, so that statements about values
  do not depend on what Python or C values are.
* `Hier`: an arbitrary finite class graph in which bases come before derived classes (the API cannot
  create any other).
* Counterexample theorems state a concrete reachable situation in which the natural property fails.  The
  property keeps its full statement in properties.jsonl and its status is `partial`.

## Trusted base

1. Lean 4.33.0's kernel and the three standard axioms `propext`, `Classical.choice`, `Quot.sound`; the
   axioms of every property theorem are listed in AXIOMS.md (made by `tools/axioms.py` with
   `#print axioms`).  No axioms of our own, no compiled evaluation.
2. The reading of /repo: each definition cites the lines it transcribes and names its simplifications.
3. The meaning given to generated code, where a property is about what it does at run time: C control flow
   (`Flow`), `PyArg_ParseTuple*`/`Py_BuildValue` units (uninterpreted conversions, except integers, whose C
   ranges are explicit), `PyObject_CallMethod`'s unpacking of a single tuple, CPython's slot protocol
   (errors reported by -1/NULL), reference counts, `std::map`, `dynamic_cast`/`typeid` by class
   identity, C++'s first-match rule for catch clauses, `PyType_Ready`'s idempotence.
4. Python semantics used without proof: dict insertion order (3.7+), `%` formatting with literal formats,
   `str` methods on ASCII as transcribed in Basic.lean.

## Simplifications that matter

* Text passed to `write_code` is an opaque action in `Flow`; loops and conditionals written as text are
  executed straight through.
* A property about generated code says what that code does if it compiles; where it is known not to
  compile this is a finding below.
* Python 3 is assumed unless a definition takes the version as a parameter.

## Findings proved as counterexample theorems

The exact theorem names are in MANIFEST.json under the property.

* C04: a cleanup handle stays usable after `clear()` and then cancels another cleanup.
* C09: base names `foo`, `foo`, `foo2` give the same variable twice.
* C12: an unterminated comment makes the tokenizer loop (or lose the slash at the start of the text).
* C13: `::::a`; C14/C15: `**` is one token, `ns :: Foo` is three; C17: `ctype_no_const_no_ref` goes stale, and the normal form is not canonical.
* C18: type modifiers are unreachable for some names; C20: alias lookup strips what alias registration keeps.
* C22: `AttributeError` without error handler; C25: `vector_counter` ends in `RuntimeError` (Python ≥ 3.7) and `IndexError` on no dimensions; C26/C27: mangling is not injective.
* C30: includes with mixed quotes accepted, `__main__` section file lacks the common include; C31: `end_section("__main__")` with none open; C32: prefix collisions, duplicate submodules; C47: nameless parameter specs; C50: strip-prefix merges functions.
* C33: duplicates in the MRO of diamonds; C34: a sibling's method counts as implementation, cached answers go stale; C35: second base's policy dropped; C36: in-place operators never deduplicated, unary-only classes get no number methods, failed operands leave an empty slot; C37: the root class is never found by the walk.
* C38: constructors do not register, `dealloc` unregisters another wrapper, `tp_clear` leaves a stale entry, helper objects returned through a base pointer, the default registry keeps nothing.
* C39: off-by-one ranges (`Int8Return` accepts 128, refuses -128), unchecked narrowing.
* C40: wrappers without inputs have three parameters for `METH_NOARGS`; C41: `retval`/`retval2` clash; C42: bare returns skip cleanups; C43: `Py_FatalError`/`PyErr_Print` after the GIL was released; C44: catch clauses, parent callers and constructors that return without restoring the thread state.
* C45: ownership policies ignored or leaking in six situations; C46: wards lost without a `__dict__`, equal but distinct wards not kept, index -2 accepted, `NameError` in precall.
* C52–C55: see the notes; C56: several returned values are never accepted; reference output parameters get the value where an address is needed.
* C57: enum `cpp_namespace` missing from its type name; C58: enums in classes drop `values_prefix`; C59: distinct C++ names with equal C symbols.
* C60: a list changed during conversion is read past its end, adapters do not compile; C61/C62: re-initialisation leaks and iterator mismatch, uninitialised objects crash; C63: `char*` keys give (value, key).
* C65: user-set `tp_as_number`/`tp_as_sequence` overwritten; C66: offsets differ between base and derived struct when options differ; C67: indices cut to 32 bits, masked exceptions, `del obj[i]` crashes; C68: slices unreachable, skipped sequence methods leave a slot calling `None`.
* C70: built-in functions as overrides are never called; C71: a single tuple argument is unpacked; C72: `NotImplementedError` in a virtual proxy escapes the error handler.
* C73: a base class listed before a derived class hides it; C74: types in submodules against types of the root module (four cases).
* C69: methods overridden or made private in a second base are called with a pointer to the wrong subobject; overloads added to a class's own methods come after these were written.
* C76: `_get_x` beside attribute `x`, `f` overloaded beside `f__0`, instance and static attribute of one name, one `custom_name` twice; C77/C78: attributes sharing a `ReturnValue` object read and write each other's member; C79: `del obj.x` parses a null pointer.
* C80: see the eight counterexample theorems of `Handlers/ArgsProps.lean`; C81: an override with an `inout` reference that raises gets the caller's object deleted; `inout` pointers are put into the argument tuple twice and freed too early; null pointers are dereferenced; a reference transferred to an object with a wrapper leaks.
* C82: classes nested deeper than the loop looks, mutual implicit conversions, conversions lost when postponed, namespaces; C83: annotations on the first line, wrapped, indented, or given twice; C84: annotations accepted without effect (nine theorems); C86: virtual and pure virtual flags differ between script and memory; C87: names, classes and order in the script; C88/C89: operators in nested classes, ignored declarations, anonymous classes.
* C90: `Glib::ustring` refuses embedded zeros, `char` takes and gives bytes objects of length one; C91: an argument whose `__bool__` raises is passed as true with the exception set; C92: `PyLong_AsUnsignedInt` does not exist, unchecked unsigned elements, the float array code names `element` where the variable is meant.
* C94: a null pointer returned leaves without cleanups and without output values (cppclass.py:3770-3773); a pointer return without ownership annotation is accepted (3752-3755); smart-pointer classes returned by value with a registry, and shared returns of helper classes, do not compile; copy policies return the registered wrapper instead of a copy.
* C95: constant references and borrowed pointers returned by overrides dangle; uncopyable objects are taken without unregistering them, also from wrappers that do not own them; empty wrappers crash; pointers to smart-pointer classes do not compile.
* C96: `wrapper.function_name` does not exist on converters, so `char*` with `free_after_copy` raises AttributeError after its name was claimed; equal mangled names, and one type with different options, share the first converter; a container declared twice raises KeyError; empty wrappers are dereferenced; -128 does not survive `int8_t`.
* C97: a class whose constructors were skipped inherits `tp_init` of its base; helper constructors for private constructors; shared pointers with helpers do not compile; memory policy of the last class of the MRO is used (cppclass.py:1080-1086); inherited default constructors of protected or several bases; a second `__init__` loses the object.
* C98: `__copy__` of a Python subclass gives the base type, attributes are lost, inherited `__copy__` slices, empty wrappers crash, smart pointers do not compile, the post-creation hook is skipped.
* C99: the buffer of every `Glib::ustring` argument leaks; strings created for the function, output containers, references and output objects leak when a later argument is refused or the function throws; an object transferred to a function that throws is owned twice, since `py->obj = NULL` is written to the code after the call.
* C100: in a Python class derived from wrapped class `L`, an override of a method declared only in a base `K` of `L` that calls `super().m()` recurses for ever (the wrapper of `K` tests for the helper class of `K`, the object is of the helper class of `L`); the same for `K.m(self)` when both declare it, and for pure virtual methods; undeclared C++ overrides are skipped; a class without own virtual methods has no helper class, so Python overrides of inherited ones are ignored.
* C101: the short name of a type is global: `ns::Foo` takes `Foo`, so a later global class `Foo` gets the conversions of `ns::Foo`, and a later global enum `Foo` is refused; `ns::V *`/`ns::V &` (return) of a container are unknown though `V *`/`V &` work; `Foo *` of shared_ptr classes is unknown, `shared_ptr<None>` is registered; `if ctype == self.cpp_class.name` never holds because `ctype` is a `TypeTraits`, so short names reach the generated code.
* C102: `char *` results dangle (`Py_DECREF(py_retval)` before `return`); `et` buffers of `Glib::ustring` leak; strings with transferred ownership leak when a `void` override fails; overrides that have to return two or more values can never succeed, since `py_retval = Py_BuildValue("(N)", py_retval)` wraps the returned tuple before `PyArg_ParseTuple`.
* C103: `retval = PyObject_IsTrue(…)` stores -1 as true and leaves the exception set; `PyErr_SetString("function/method should return None")` is neither printed nor cleared; output-only containers are passed to the override as an extra empty argument; a refused object empties the container; borrowed `PyObject *` results dangle; a transferred `PyObject *` is used up by `N` and then given to the C++ implementation when the override fails.
* C104: `_generate_import_from_module` computes `type_name` and ignores it; a class missing in the other module leaves a NULL type without an error; `_cobj` is declared twice in one block for a narrowing root without bases when registries are on (does not compile); nested classes are looked for as module attributes.
* C105: a class of the root module whose base is in a submodule makes that base ready before its own `tp_base` is set, so the base loses its bases; a base imported by a submodule is NULL when the root module's classes are made, so the class silently derives from `object` only.
* C106: `matches_signature` compares Python names, so a virtual method with a custom name in one class only of a hierarchy is declared twice in the helper class (does not compile).
* C107: container traits of a nested class end with an `AttributeError` (cppclass_container.py:147 asks the class, not the traits); a mapping whose keys are `char` shows (value, key); a null pointer in a mapping shows `None` instead of a pair; mapping containers to containers fails an assertion (both declare `retval`); `FooIter()` can be called from Python and crashes on `next`; iterators are allocated with `PyObject_GC_New` but never tracked, so cycles through them are never collected.
* C108: an override that passes `self` to a function taking ownership (`container.add(self)`) leaves a wrapper that still owns the object: the proxy restores the pointer that the transfer had cleared (cppmethod.py:1121), and the object is freed twice; an object destroyed during its own override is used afterwards through `m_pyself`.
* C109: `CppMethod.clone` (cppmethod.py:209-228) drops `throw`, `deprecated`, `unblock_threads` and relations added with `add_custodian_and_ward`: a method with `throw=[...]` that is handed on to a derived class lets the C++ exception escape, and the objects it stores are no longer kept alive. `CppFunctionAsConstructor` ignores its argument `unblock_threads` (cppmethod.py:808).
* C110: `tp_clear` of a shared pointer class calls the destructor of `self->obj` and leaves the pointer in place; `tp_dealloc` reads it and destroys it again (smart_ptr.py:26-27, cppclass.py:2460-2467, 2566-2571), so a wrapper in a reference cycle destroys its object twice, or while C++ still holds it. `__init__` on a wrapper that C++ returned leaves it registered under the old object. `__copy__` assigns a raw pointer to the shared pointer (2305), so a shared pointer class with a copy constructor does not compile; overrides with shared pointer parameters do not compile with the `std::map` registry (smart_ptr.py:250, 254: the key is the pointer object, not `get()`).
* C111: docstrings are put between quotes as they are (function.py:301-303, cppmethod.py:422-424, cppclass.py:2219, module.py:718, 834), so a docstring of several lines or with a quote does not compile and a backslash changes it. Overload sets without docstring get NULL although their members would show signatures (overloading.py:276-285); conflicting docstrings raise CodeGenerationError outside call_with_error_handling (module.py:742, cppclass.py:2407) and so stop the whole generation; parent callers never have one (cppmethod.py:964-978).
* C112: in-place operators work on a copy of the left operand (cppclass.py:2096-2100), so `a += b` rebinds the name and every other reference to the object keeps the old value; for an object of a derived class the name then refers to a base class object. `tp_as_number` is filled only if there are binary or in-place operators (2029), so unary minus alone is lost. `tp_richcompare` with `==` alone makes equal objects also `!=` (2604-2618). A registration whose right operand is given up leaves an empty slot that hides the inherited operator (857-862).
* C113: nothing checks that names of different kinds differ: functions are entered first (module.py:745-753) and lose to any other declaration of the name; a function named `<module>_X` loses its prefix (259, 344-351) and may so meet class `X`. `PyModule_Create` does not enter submodules in `sys.modules`, so `import m.sub` fails under Python 3 (811-816). cppclass_container.py:147 looks for `get_iter_python_name` in the class instead of the traits object, so a nested class declared as a container stops generation with an AttributeError. `values_prefix=None`, which the documentation of Enum allows (enum.py:28), is a TypeError at enum.py:158.
* C114: the metaclass has only the metatype of the first base as base (cppclass.py:1970-1976), so static attributes of other bases do not exist on the class; static attributes live in the metaclass only, so `obj.x` is an AttributeError. `tp_setattro = PyObject_GenericSetAttr` (cppattribute.py:337-338) writes the type's dictionary without `PyType_Modified`, so the lookup cache may go on answering with what was there before. The result of `PyType_Ready` on the metaclass is not checked (339). The header of a module with sections declares `Py<X>Meta_Type` without the name prefix with which it is defined (cppclass.py:1851, cppattribute.py:270-271).
* C115: an override's result given away by `retval = tmp->obj; tmp->obj = NULL;` (cppclass.py:3824-3828, classes that cannot be copied) stays in the wrapper registry and is given away even if the Python object does not own it; `const K&` results are references to the proxy's local variable `retval` (3365-3367, base.py:661); plain pointers point to objects that die with the override's result (3840-3843, `Py_DECREF(py_retval)` runs before `return`); copies through the declared class slice derived objects; `tmp->obj` is not tested for NULL before `*tmp->obj`.
* C116: with `name_prefix` set, the header declares the metaclass of a class with static attributes without the prefix (cppclass.py:1851), but it is defined and used with the prefix (cppattribute.py:270-271, 331-340): if the class is in a section of its own the main file does not compile.
* C117: (1) `tp_traverse` uses a peekref method but never a peekref function (cppclass.py:2476): with `ReferenceCountingFunctionsPolicy` the collector clears Python subclass instances that C++ still holds. (2) Wrappers of returned objects and iterators are made with `PyObject_GC_New` and never tracked (cppclass.py:2653-2659, container.py:482, cppclass_container.py:241): cycles through them leak. (3) `tp_dealloc` (cppclass.py:2549-2585) does not call `PyObject_GC_UnTrack`: a collection during the release of the instance dictionary releases the object again.

## Further disagreements noticed while reading (not theorems)

* Container error messages say None is accepted, it is refused; a map given as a list keeps the first value of a duplicate key.
* Class and container handlers compare `ctype == container.name` with a `TypeTraits` object, which is never true when created through `ReturnValue.new`, so short names stay unqualified in the generated code.
* C118: the name of a template is searched from the left in the demangled text, so `int t<int>(int)` is not recognised and the method `Set` of `MySet<int>` is called as `Set< int >` (castxmlparser.py:65, 77); template arguments keep the blank behind the comma (castxmlparser.py:95) and annotation values end at blanks, so instances with several arguments cannot be named by `template_instance_names`.
* C119: `pygen_sinks.sort()` (castxmlparser.py:1369) compares code sinks when precedences are equal, so a template instance over two sections stops the scan with a TypeError, always if `get_section_precedence` is not implemented; sections run in listed order with the main section last, whatever their precedence (castxmlparser.py:1050-1065).
* C120: whitelisted directories are compared as text prefixes (castxmlparser.py:665), so `inc` also admits everything below its neighbour `include`.
* C121: a container is marked as registered before its element type is looked up (castxmlparser.py:1643), so one whose element class belongs to a nested namespace, or whose inner container is used later, is never registered, while the script gets a line that fails (1687-1689); a priority_queue is registered as `dequeue` and its code calls push_back (castxmlparser.py:1602-1603).
* C122: a class annotated `exception` that has a virtual method and no base class gets allow_subclassing=True, which add_exception does not accept: the scan stops with a TypeError (castxmlparser.py:1015-1016, 1411); a class with virtual methods whose first base class has none cannot be subclassed (castxmlparser.py:1015, cppclass.py:732); `incref_method` without `decref_method` generates `tmp->None()`.
* C123: add_custom_function_wrapper without wrapper_body (its default) ends in a RecursionError: generate calls generate_declaration, which calls generate (function.py:275-284, 345); the flags given for a hand-written function are lost when its declaration is written (base.py:809), so with flags other than the default ones the main wrapper is declared with other parameters than it is defined with and keyword arguments are announced; a hand-written method without body is declared with four parameters, whatever its flags (cppmethod.py:1156).
* C124: the tp_str function of a base that is not the first one is inherited by PyType_Ready unchanged and reads the object through a pointer to the wrong subobject (cppclass.py:2495-2511; methods are re-exported for this case, str is not); the text is built with PyUnicode_FromString, so it is cut at a zero byte and raises UnicodeDecodeError if it is not UTF-8; an object whose __init__ was not called is dereferenced although obj is null.
* C125: an exception declared by value as `const E` is looked up under the name `E const` and not found, so it is not caught (castxmlparser.py:2198; references are looked up without const); functions with as_method or is_constructor_of lose their exceptions (2352-2385); the throw annotation is split at every comma, also inside template arguments, and names are not resolved in the namespace of the declaration, and the scan then ends in a ValueError (2211-2222).
* C126: add_function_as_method without custom_name, or with custom_name equal to the function's own name, makes a Python method called `None` (cppclass.py:1438 uses the getter function.py:99-103); two classes of a module with functions as methods of the same name get one C symbol (function.py:175) and the method tables do not compile; a class with several bases copies the wrapper without its self parameter, namespace and template arguments (function.py:112-128), which does not compile.
* C127: generating a function or method with `throw` sets REQUIRES_ASSIGNMENT_CONSTRUCTOR of its return handler to False (function.py:242, cppmethod.py:389); the handler is shared with the parent caller and the override of the method (cppmethod.py:884, 1006), which afterwards declare `retval` without a value. generate_body run twice without a reset writes other variables and parses the arguments twice.
* Glib `"et"` strings leak; `StdStringPtrParam` with `transfer_ownership` leaks when a later argument fails to parse.
* cppclass_container.py:147 calls a method that does not exist; `register_alias` registers `alias` instead of `alias&` for reference returns; two classes with the same short name: the first wins silently.
* A second `Module.generate()` fails, `add_include` after generation raises `TypeError`; the `PyInit` name ignores `module_file_base_name` and dots.
* In-place operators work on a copy of the left operand; `DummyParameter` checks `isinstance(…, ReturnValue)`.
* `CppClassPtrReturnValue` tests `free_after_copy is None`, never true; `CppClassPtrParameter` in-out proxies pass the object twice; `CppClassRefParameter` output sets flags only after the call; temporaries of reverse wrappers still own the caller's object if the override raises.
* `clone()` of functions, methods and constructors loses `throw`, custodians, `unblock_threads`, `deprecated`, template parameters; `CppVirtualMethodParentCaller.clone` passes one argument too many; `CppFunctionAsConstructor` drops `unblock_threads`.
* Range-check failures in reverse wrappers leave a Python exception set; `PyEval_ThreadsInitialized` is evaluated twice.
* `UnsignedIntPtrParam` array check is never formatted, `PyLong_AsUnsignedInt` does not exist; `IntPtrParam` passes `transfer_ownership` as default value and writes `Py_INCREC`; `FloatPtrParam` refers to `element`; `FloatParam` ignores defaults; `DoublePtrParam` appends `xxxxx` to a name.
* Smart pointer returns contain a bare `return Py_None` without a new reference; a parameter named `self` is not reserved.
* Imported classes: the attribute lookup failure is cleared and the type stays NULL.
* Reverse `CStringReturn`, `StdStringReturn` and class returns append their parse unit where the others prepend it.
* `pygen_sinks.sort()` raises TypeError for two sinks of one line; enum `import_from_module` is only written to the script; `register_alias` only happens in memory (castxmlparser.py).
* Wrappers made with `PyObject_GC_New` are never tracked by the collector.
