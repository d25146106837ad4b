{
 "C04": "Full statement not provable (false of the code outside these limits) or not proved in full. Proved: On a code block that has not been cleared, cancelling a handle removes exactly the cleanup chunk that handle was returned for and leaves every other chunk in place, whatever other additions and cancellations happened meanwhile. (clear() restarts the handles: afterwards an old handle can remove a newer chunk, which the counterexample theorem shows.) Ranges over: every history of additions and cancellations on every block of a chain.",
 "C09": "Full statement not provable (false of the code outside these limits) or not proved in full. Proved: All names returned by declare_variable()/reserve_variable() on a family of scopes sharing a parent are pairwise distinct, provided no requested base name is another requested base name followed by decimal digits. (Without the proviso two variables of one name can be declared, which the counterexample theorem shows.) Ranges over: every sequence of requested base names on every family of scopes.",
 "C13": "Full statement not provable (false of the code outside these limits) or not proved in full. Proved: normalize_type_string(normalize_type_string(t)) == normalize_type_string(t) for every type string that can be normalized and in which a leading '::' is followed by a name; normalization terminates on every token list and succeeds exactly on the token sequences of the type grammar. (For '::::a' it is not idempotent: counterexample theorem.) Ranges over: every C type string (any nesting of template and function arguments).",
 "C14": "Full statement not provable (false of the code outside these limits) or not proved in full. Proved: Two type strings that have the same tokens up to the order of const/volatile within one pointer level, at any nesting depth, have the same normal form; and the tokens do not depend on the white space around them as long as neighbouring tokens cannot fuse. ('**' is one token, so 'char **' and 'char * *' have different normal forms: counterexample theorem.)",
 "C15": "Full statement not provable (false of the code outside these limits) or not proved in full. Proved: For type strings in which a leading '::' is followed by a name, the normal form has, at every pointer/reference level of the tokenized type, the same non-modifier tokens in the same order and the same multiset of const/volatile modifiers as the input, and two types with one normal form are equal in this sense. (Since '**' is one token, 'const char **' and 'char ** const' share a normal form: counterexample theorem.) Ranges over: every type string the library can tokenize.",
 "C17": "Full statement not provable (false of the code outside these limits) or not proved in full. Proved: After make_const the type is const, otherwise unchanged, and every attribute is that of a fresh TypeTraits of the new type; after make_target_const the pointed-to or referred-to type is const, the type is otherwise unchanged, and every attribute except ctype_no_const_no_ref is that of a fresh TypeTraits; both are idempotent, and make_target_const is refused exactly for types that are neither pointer nor reference. (ctype_no_const_no_ref goes stale and the result need not be in canonical form: counterexample theorems.)",
 "C18": "Full statement not provable (false of the code outside these limits) or not proved in full. Proved: After registering a handler for a type name without top-level modifiers, looking up any spelling of that type, with any top-level modifiers added, returns that handler; the first registration of a normal form wins and registering a second handler under an equal normal form raises ValueError and leaves the registry unchanged; a lookup never changes the registry. (A name registered with top-level modifiers is never found: counterexample theorem.)",
 "C20": "Full statement not provable (false of the code outside these limits) or not proved in full. Proved: Along a chain of aliases without repetition, each name having one alias, lookup of the first name finds the handler registered for the last one, however long the chain. (When a name takes part in several aliases only one of them is followed, so a handler that is connected through another one is not found: counterexample theorems.) Ranges over: every registry, every chain of aliases of any length.",
 "C22": "Full statement not provable (false of the code outside these limits) or not proved in full. Proved: With an error handler installed, before an overload dispatcher is emitted the wrappers kept all have the same calling-convention flags, are exactly the declared ones that survive the flag unification, in declaration order; the process terminates. (Without an error handler a failing overload ends in AttributeError: counterexample theorem.)",
 "C25": "Full statement not provable (false of the code outside these limits) or not proved in full. Proved: vector_counter(vec), for a non-empty list of non-empty lists, yields every element of the cartesian product exactly once in lexicographic order, and then ends with an exception: RuntimeError, because it raises StopIteration inside a generator. (For the empty list it fails at once: counterexample theorem.) Ranges over: every non-empty list of non-empty lists; the empty list separately.",
 "C26": "Full statement not provable (false of the code outside these limits) or not proved in full. Proved: mangle_name maps every name made of identifier characters and the punctuation it knows to a C identifier, leaves identifiers unchanged, works character by character (so it distributes over concatenation) and is idempotent; a template instance named by parts or by its text gets the same name. (Punctuation it does not know, such as '[', survives: counterexample theorem.)",
 "C27": "Full statement not provable (false of the code outside these limits) or not proved in full. Proved: Different names made of identifier characters get different mangled names. (Names with punctuation can collide with each other and with plain names, e.g. 'ns::Foo' and 'ns__Foo': counterexample theorem.) Ranges over: every pair of names made of identifier characters.",
 "C30": "Full statement not provable (false of the code outside these limits) or not proved in full. Proved: In the generated output of each file the include lines precede all code, in first-added order without duplicates: in the single file of monolithic output, and in the header, main and section files of split output, where every section file except one for a section named '__main__' includes the common header. Include arguments must be quoted by \"\" or <>; arguments with mixed quotes are accepted too (counterexample theorems for the last two points).",
 "C31": "Full statement not provable (false of the code outside these limits) or not proved in full. Proved: On the root module begin_section(x) is accepted exactly when no section is open and x is not '__main__', end_section(x) exactly when the open section is x or, with none open, x is '__main__'; both are refused on submodules; every function belongs to the section open when it was added. (So an end_section('__main__') without begin is accepted: counterexample theorem.)",
 "C32": "Full statement not provable (false of the code outside these limits) or not proved in full. Proved: add_cpp_namespace is idempotent and returns the same module for the same name; the namespace path of a nested module is the path of its parent plus its own name, so modules made by add_cpp_namespace have distinct paths; the C prefix derives injectively from the path for names without underscore. (Names with underscores can collide, and SubModule can be created twice under one name: counterexample theorems.)",
 "C33": "Full statement not provable (false of the code outside these limits) or not proved in full. Proved: is_subclass(other) holds exactly when other is reachable through parents; get_mro enumerates exactly the class and all its ancestors, nearer levels first; with single inheritance each is listed once. (In a diamond the shared ancestor is listed twice: counterexample theorem.)",
 "C34": "Full statement not provable (false of the code outside these limits) or not proved in full. Proved: With single inheritance and declarations that C++ accepts, a class is regarded as having pure virtual methods exactly when C++ regards it as abstract; in any hierarchy a class that declares a pure virtual method nobody implements is so regarded; and the cached answer is current as long as no virtual method is declared on a proper ancestor after the first query. (A method of an unrelated base counts as implementation, and later declarations on ancestors leave a stale answer: counterexample theorems.) Ranges over: every hierarchy, method set and history of declarations and queries.",
 "C35": "Full statement not provable. Proved: a class without own memory policy gets the policy of the first of its bases that has one; a class cannot override an inherited policy; a class has a policy exactly when it or an ancestor was given one; the class where a policy was declared is well-defined, with nothing above it having one; with single inheritance all descendants share it. (With several bases the policy of a second base is dropped: counterexample theorem.)",
 "C36": "Full statement not provable (false of the code outside these limits) or not proved in full. Proved: Registering the same binary or unary operator with the same operand classes several times results in one generated case; cases are tried in the order of first registration, each slot dispatches exactly to the cases registered for its operator, and rejected requests change nothing else; in-place registrations are all kept, in order. (In-place operators and operands given by type name are not deduplicated, a class right operand of an in-place operator is refused, a class with unary operators only has no number methods, and a failed operand leaves an empty slot: counterexample theorems.)",
 "C37": "Full statement not provable (false of the code outside these limits) or not proved in full. Proved: The generated type map lookup returns the wrapper type registered for the nearest class on the object's single-inheritance chain, if that is the object's own class or itself has a single base, and the fallback when no class of the chain is registered, for any registration order; the declared class's own registration is thereby respected, and all classes derived from one narrowing root share one map. (A registered root class is not found for unregistered subclasses: counterexample theorem.)",
 "C38": "Full statement not provable (false of the code outside these limits) or not proved in full. Proved: With the std::map wrapper registry, lookup after register returns the registered wrapper, after unregister none; and an object has at most one live wrapper, which is the one returned to Python, in every history in which no C++ object is destroyed under a live wrapper, no object that a live wrapper got from __init__ is returned other than as an instance of its helper class, __init__ is not called twice, and the garbage collector clears only wrappers that got their object from __init__. (Each of these conditions is needed: counterexample theorems.) Ranges over: every history of C++ and Python events on any number of objects and wrappers.",
 "C39": "Full statement not provable (false of the code outside these limits) or not proved in full. Proved: For every integer handler the set of accepted Python integers and the value received are exactly known: int16_t returned from Python, int16_t&, and all int, long and long long handlers accept exactly the representable integers and pass them unchanged; all others except int8_t returns and references accept every representable integer and pass it unchanged; the unsigned and 8/16-bit by-value handlers additionally accept unrepresentable integers, which arrive reduced modulo the type (counterexample theorem); whatever arrives is a value of the C type.",
 "C43": "Full statement not provable (false of the code outside these limits) or not proved in full. Proved: In a generated virtual method proxy the GIL is acquired before anything else is done, released exactly once on every path, and nothing but a return statement follows the release, for every method that is void, or has a callable parent implementation, or returns a class with a trivial constructor. (For a pure virtual method with another return type PyErr_Print and Py_FatalError are called after the release: counterexample theorem.) Ranges over: every parameter list and return value whose handlers leave the function only through error checks and cleanup branches, and every failure point.",
 "C45": "Full statement not provable (false of the code outside these limits) or not proved in full. Proved: When a Python wrapper dies, its C++ instance is deleted exactly when the wrapper owns it; a wrapper created with reference_existing_object never deletes it (classes without memory policy); no object is freed twice or leaked in any history in which ownership of an object that Python already wraps is not given to Python again (unless reference counted), helper class instances are returned only while their wrapper points to them, non-owning wrappers are made only for classes without memory policy, free_after_copy is not used with reference counting and __init__ is not called twice. (Each condition is needed: counterexample theorems.)",
 "C46": "Full statement not provable (false of the code outside these limits) or not proved in full. Proved: With custodian/ward annotations, for custodians with an instance dictionary and wards compared by identity: the ward is not freed while a custodian is alive and is released once when the last custodian goes; adding the same pair twice has no further effect; the annotations of parameters and return values give exactly the expected relations, before or after the call. (Custodians without dictionary lose the ward with an exception left set, and a ward equal to another one is not kept: counterexample theorems.) Ranges over: every sequence of calls and reference operations on any number of objects.",
 "C47": "Full statement not provable (false of the code outside these limits) or not proved in full. Proved: A specification built with param(*args, **kwargs) or retval(*args, **kwargs) is parsed back into exactly the same positional arguments and keywords when the wrapper is generated; a bare tuple has no keywords; specifications with fewer items than required are refused, the keyword dictionary counting as an item. (So a specification with keywords but no name is accepted: counterexample theorem.)",
 "C50": "Full statement not provable (false of the code outside these limits) or not proved in full. Proved: Functions added to a module form one overload set per Python-visible name, in order of first use, each containing every function of that name in the order they were added; with a name prefix to strip, the prefix is removed once and only at the front. (Stripping can merge functions with different C++ names into one set: counterexample theorem.)",
 "C52": "Full statement not provable (false of the code outside these limits) or not proved in full. Proved: A class declared with an explicit allow_subclassing, or whose first base Python may subclass, can itself be subclassed if some base can, unless its destructor is private; asking to forbid it under such a base is rejected with ValueError; a class with a private destructor can never be subclassed. (With the default setting a second base does not count: counterexample theorem.)",
 "C53": "Full statement not provable (false of the code outside these limits) or not proved in full. Proved: The helper class of a wrapped class is passed to exactly the hooks registered on that class and on its ancestors, parents' hooks before its own; with single inheritance each registration runs once. (In a diamond a hook of the shared ancestor runs twice: counterexample theorem.)",
 "C54": "Full statement not provable (false of the code outside these limits) or not proved in full. Proved: New C++ instances of a class are created by the creation function last set on the class or else on its nearest ancestor that has one; if none is set, by the function of the memory policy declared at the root of a single-inheritance hierarchy. (The creation function of a policy declared below the root is ignored: counterexample theorem.)",
 "C55": "Full statement not provable (false of the code outside these limits) or not proved in full. Proved: The generated helper class of a class that Python can subclass overrides nothing but virtual methods of the class and its ancestors, each signature once; if helper classes are not re-enabled and no ancestor's helper is disabled, it overrides every one of them, using the declaration of the nearest class; if a pure virtual method of the class cannot be wrapped, the class gets no helper class. (Re-enabling, and an unwrappable pure virtual method of a base without helper class, break this: counterexample theorems.)",
 "C56": "Full statement not provable (false of the code outside these limits) or not proved in full. Proved: When C++ calls a virtual method overridden in Python and exactly one value is expected back (the return value, or a single output parameter of pointer type), the object returned by the override is converted and stored there, and refused exactly when it cannot be converted; with nothing expected exactly None is accepted. (When several values are expected everything is refused, and arithmetic reference output parameters are written through a wrong address: counterexample theorems.)",
 "C57": "Full statement not provable (false of the code outside these limits) or not proved in full. Proved: The C++ name that generated code uses for a class, function, exception or enum is its qualified name: the namespaces of its module chain (or the foreign namespace given, for classes, functions and exceptions), the enclosing classes, and the name with its template arguments; two class declarations share a C++ name only if they are the same entity, when no name component contains a colon (no qualified template arguments). (The cpp_namespace of an enum is not part of its type name: counterexample theorem.)",
 "C58": "Full statement not provable (false of the code outside these limits) or not proved in full. Proved: An enum defines one Python constant per enumerator, in order, under the enumerator's name, with the enumerator's C++ value (its qualified name with the value prefix, or the expression given), on the module or, for an enum of a class without value prefix, on the class; an enum imported from another module defines nothing. (The value prefix of an enum in a class is dropped: counterexample theorem.)",
 "C59": "Full statement not provable (false of the code outside these limits) or not proved in full. Proved: The C symbols generated for a class (object struct, type object, metaclass) are C identifiers; classes with plain names in one namespace share a symbol only if their names agree up to the case of the first letter. (point/Point, a::Bc/aBc and template instances can clash: counterexample theorem.)",
 "C60": "Full statement not provable (false of the code outside these limits) or not proved in full. Proved: Where a generated function or constructor takes a container, a Python list whose items' conversion does not change the list is accepted exactly when every item converts to the element type (for mappings: is a pair whose parts convert), and the C++ container received has exactly the converted items: in order for sequences, as the insertions in order give them for sets and mappings; an instance of the wrapper type is received as its current contents; anything else is refused with TypeError. The code uses only members that the C++ container has, except for queue, priority_queue and stack. (Conversions that shorten the list make it read past the end, and the three adapters do not compile: counterexample theorems.)",
 "C61": "Full statement not provable (false of the code outside these limits) or not proved in full. Proved: Iterating a container wrapper that was initialized once yields every element exactly once, in the order of the C++ container, then stops for good; iterators are independent of each other and keep their container alive. (After a second __init__ an old iterator compares iterators of two containers: counterexample theorem.)",
 "C62": "Full statement not provable (false of the code outside these limits) or not proved in full. Proved: In every history of operations in which wrappers are created by calling the type or returned by C++, initialized once, and iterators made by iter(), no C++ container is used after it was deleted, each is deleted exactly once, when the last Python reference (including those of iterators) to its wrapper goes, and none is leaked. (T.__new__, a second or failed __init__ and calling the iterator type break this: counterexample theorems.)",
 "C63": "Full statement not provable (false of the code outside these limits) or not proved in full. Proved: Iterating a wrapper of a C++ mapping yields pairs whose first item is the key and whose second item is the value, for every key type except char and char*, and every value type. (char and char* keys come second: counterexample theorem.)",
 "C65": "Proved: a user's slot is kept, except that numeric operators and sequence methods always take their slots and comparison operators replace an explicit NULL; writing fails exactly for a class nested in one not generated before it. (A user's number table is overwritten when the class has numeric operators: counterexample theorem.)",
 "C12": "Proved for every source whose /* comments are all closed: tokenizing ends and the tokens plus white space, comments and backslashes make up the source. With an unterminated comment it may run for ever or lose a character: counterexample theorems.",
 "C66": "Proved: the exact member list of every struct (C66_exact), and that it extends the base's struct when allow_subclassing, the destructor and the pointer policy agree along the inheritance chain, for the first base. The four ways in which it fails are counterexample theorems.",
 "C67": "Proved: object, length and (for indices in the int range) index and value are passed and results returned. Index truncation, masked exceptions, negative lengths or statuses without an exception, the leaked result of __setitem__ and the crash of del obj[i] are counterexample theorems.",
 "C68": "Proved: exact content of the method table and of the failing case, and that sequence methods other than slices have their slot. Slices are unreachable on Python 3 and a skipped sequence method leaves a slot that calls None: counterexample theorems.",
 "C70": "Proved for every execution of every proxy whose parameter handlers write only after the call (all scalar handlers): the lookup, the decision, the object set to this, and everything that runs when there is no override or when it raises. False for overrides that are built-in functions (counterexample theorem), and a non-void method whose override raises also runs the C++ implementation.",
 "C71": "Proved for scalar parameters passed by value, reference and pointer. False for a single argument that is a tuple: PyObject_CallMethod unpacks it (counterexample theorem).",
 "C72": "Proved for function and method wrappers, for every position of the failing handler. False for virtual method proxies: NotImplementedError escapes the error handler (counterexample theorem).",
 "C73": "Proved for every wrapper of a function or method and every execution; the class reported is the first listed match, which is the most specific one if no class is listed before one derived from it. Otherwise false (counterexample theorem). C73_constructor_partial: the same for constructors of all classes, with or without helper class.",
 "C74": "Proved for every history in which outer classes and bases belong to the same module. Across modules it is false in four ways (counterexample theorems). Classes imported from other extension modules are not modelled.",
 "C16": "Proved for every string denoting a type whose top-level declarators are the tokens * and & (C16_traits_value, C16_traits_pointer). False as stated for every type string: the tokenizer reads ** and && as single tokens, so 'int **' is classified as neither pointer nor reference (C16_double_star_counterexample) and 'int &&' is not a reference (C16_double_amp_counterexample). For 'T & *'-like ill-formed types ctype_no_const_no_ref is not described.",
 "C69": "The contents of the table are proved exactly (C69_exact, C69_special_never). The pointer claim is proved for hierarchies in which every name a class with several bases does not define itself is defined by a single ancestor and not made non-public (C69_right_object_partial). It is false otherwise: a second base that overrides a method of its own base (C69_override_counterexample), a method redeclared private (C69_private_counterexample); a function added as method under a base's method name makes generation raise AttributeError (C69_function_counterexample). The class's own overload sets get exactly the offered methods of ancestors with new signatures (C69_own_sets), but only after they were written (C69_late_counterexample).",
 "C75": "Proved for every list of declarations and every error handler (C75_table, C75_duplicate, C75_constant, C75_complete). The code of getters and setters is that of the wrapper framework with the value type's conversions as parameters.",
 "C76": "C function names: proved when no method is called like another with __ and a number added and no method name begins with a single underscore (C76_distinct_partial). False otherwise: method _get_x beside attribute x, f overloaded beside f__0, an instance attribute read by a function beside a static one of the same name, and two attributes with the same custom_name give two rows with one Python name (counterexample theorems).",
 "C77": "Proved when no two attributes share a ReturnValue object; false otherwise (C77_shared_counterexample: the getters read each other's member). The returned value is proved for types converted by a single Py_BuildValue format (C77_value_partial); for other types the getter is proved to be the type's conversion applied to the declared expression (C77_getter_partial).",
 "C78": "Proved for value types parsed in place (int, double, ...) and through a temporary with an optional range check (bool, short and unsigned types), when no two attributes share a ReturnValue object; false for static attributes sharing one (C78_shared_counterexample). Value types that need a constructor (wrapped classes, containers) are modelled only as far as the choice of target.",
 "C79": "Proved only for constant attributes. False for all others: the setter is called with NULL and parses the null pointer Py_BuildValue returned (C79_delete_counterexample).",
 "C80": "Proved for every parameter whose options are consistent (Good) and every argument that is an ordinary Python object (C80_arguments_partial, C80_const_ref_converting, C80_type_checked, C80_self). False otherwise, each a counterexample theorem: converting const references copy and ignore their default, pointer defaults other than NULL are ignored, emptied wrappers are dereferenced, objects lying about __class__ (weakref proxies) or raising in it are read as wrappers with null_ok or conversions, second bases are passed at the wrong address, None with transfer_ownership is written to.",
 "C81": "Proved for by-value and const reference parameters, pointers (copied, counted, transferred, already wrapped), and inout references when the override succeeds. False for inout references when the override fails (the caller's object is deleted), inout pointers (argument built twice, wrapper used after free), null pointers, and a transfer to an object that has a wrapper (leak): counterexample theorems.",
 "C40": "Flags proved for every list of parameters whose handlers meet the Handler contract (C40_flags_partial), which holds of every handler described in Wrapper/Desc.lean. Signatures: proved where keyword arguments are parsed, for static methods, delegates and constructors; false otherwise (two counterexamples: METH_VARARGS alone, and methods without input parameters, get C functions with three parameters of which two are passed). C40_cached_partial: flags remembered from the definition and asked for by an overload set are those of the definition's C parameters, whatever was done before; false if force_parse is changed between the definition and the question (C40_stale_counterexample).",
 "C41": "C41_handlers_partial: for every parameter list over the handlers described in Wrapper/Desc.lean and every meaning of the C texts, running the generated wrapper does what the declaration-level specification callSpec says (arguments in declaration order, results in declaration order, defaults, refusals). C41_classes_partial: the same with parameters of wrapped classes (value, reference, pointer, shared pointer, implicit conversions) among the others. C41_one_each: one value per parameter. Missing: names that clash when digits are appended (C41_clash_counterexample), a parameter named retval where the return handler does not declare it, class returns. False as stated for char and char* returns, which come last (two counterexamples); containers returned refuse a parameter named retval.",
 "C42": "C42_forward_partial, C42_function_partial: every path of the generated forward wrapper for every parameter list whose handlers meet the Early/Late contract, proved for all handlers described in Wrapper/Desc.lean. False for class returns that write a bare return (C42_bare_return_counterexample) and for checks made before earlier cleanups are recorded (C42_undisciplined_counterexample). Missing: undeclared C++ exceptions and reverse wrappers (see C43). C42_constructor_partial: constructors; false for those refused by a class with helper (C42_constructor_counterexample).",
 "C44": "C44_general_partial, C44_function_partial: every path, for every list of handlers meeting the contract, of wrappers without declared exceptions. False with declared exceptions (the catch clause runs without the GIL and never restores it), for parent callers and for constructors of abstract helper classes: three counterexamples.",
 "C82": "C82_terminates, C82_error, C82_bases_first, C82_once, C82_accounted hold for every input. C82_complete_partial and C82_conversions_partial: within one namespace, when no class is more than ten steps deep in the order of the list. False as stated: a chain of eleven classes listed derived first and two classes converting into each other end in AssertionError; nested classes and classes with a base in a later namespace are dropped with a warning; a conversion is lost when an earlier operator has a target that is not wrapped.",
 "C83": "C83_block: every well-formed block below a line that is no annotation. C83_used, C83_total, C83_unused: every file whatsoever. False as stated: at the top of a file reading wraps around to its last line (two counterexamples), an indented block comment is ignored, two lines for one parameter do not merge, spaces around = lose the value, a flag without value makes the parse fail.",
 "C85": "Line.text is modelled call by call; the reader covers the Python expression syntax that occurs (names, integers, string literals with repr's escapes, lists, tuples, calls, subscripts, keyword arguments, white space) and is part of the specification. Not covered: comment lines, def/return lines (structure of the script), and the call cls.set_cannot_be_constructed(... % ...) of line 2043. Hypothesis Ok: keyword names are identifiers; lists of classes occur under throw and parent only.",
 "C84": "Effect or warning is proved for return values, parameters, methods, functions and classes, with the exact conditions in the theorems. False as stated (counterexamples): caller_owns_return on a method or function is reported although documented; a default value in the header silently replaces an annotated one; annotations for a parameter that does not exist and annotations of constructors are ignored silently; declared throws override an annotated throw; as_method and is_constructor_of drop throw, name and unblock_threads; of_class without as_method, template_instance_names on a function that is no template, decref_method without incref_method, and the second of two memory policies are dropped silently. Not modelled: annotations of enums, user hooks.",
 "C86": "C86_function has no condition; for class members registrations are the same without condition, marks under Settled. False as stated: marks left for virtual methods whose types could not be resolved and for pure virtual methods of classes that cannot be subclassed are not in the script. Not modelled: comments, exceptions raised by handlers while registering, types and enums.",
 "C87": "C87_distinct: names of functions distinct; C87_script: sufficient condition on the names of namespaces and classes; C87_sections: sections in the order in which the main module runs them. False as stated: namespaces a::b_c and a_b::c, classes AB and A::B share a function, and with sections registrations change order.",
 "C88": "C88_class: for every class and every set of known types, if scanning ends without an exception. False as stated: public operators of nested classes are registered for the outer class too, and operators annotated ignore are registered. Not modelled: user hooks, exceptions of handlers other than TypeLookupError, TypeConfigurationError and NotSupportedError end the scan (they are errors in the model).",
 "C89": "pygccxml's answers are hypotheses (has_trivial_constructor finds public constructors without arguments, has_copy_constructor public copy constructors). False as stated: a constructor annotated ignore is registered anyway, and the implicit constructor of an anonymous structure becomes a constructor of the class around it.",
 "C90": "C90_in_partial: what each string parameter does with any string. C90_default, C90_out, C90_return: defaults, out parameters, return values. C90_call_partial: the whole generated wrapper, any list of string parameters, via C41 (same naming hypothesis). The texts are given the meaning of CPython and C++ in Wrapper/Values.lean; a text of any other shape has no meaning there, so the theorems fix the texts. False as stated: Glib strings with a zero character are refused (C90_glib_zero_counterexample), char takes and gives bytes (C90_char_counterexample). Strings passed from C++ to Python methods: C102.",
 "C91": "C91_in_partial: every object with a truth value. C91_default_partial, C91_out. False as stated: an object whose __bool__ raises is accepted and the function is called with true (C91_raises_counterexample).",
 "C92": "C92_in_partial, C92_out: all lengths and lists, for the element check on the handler's own variable. False as stated: the float handler writes the literal text `element` (C92_element_counterexample; floatArray_first: right for the first array), and unsigned elements that do not fit are not refused (C92_unsigned_counterexample). PyLong_AsUnsignedInt, which CPython does not have, is an arbitrary function.",
 "C93": "C93_container, C93_object, C93_null: by value, reference, pointer; in, out, return. The converter is arbitrary here; Container/Model.lean models it (C60-C63).",
 "C94": "Proved of the code as written, run over the same world as C45: C94_shared_partial, C94_copy_partial, C94_return_partial, C94_smart_partial (what each text does from every state), C94_refines_partial (it is Lifetime.retObj), C94_refused, C94_annotations. Partial because the statement is false in these cases: a null pointer leaves without the wrapper's cleanups and out values (C94_null_counterexample); a pointer without any ownership annotation is accepted (C94_unannotated_counterexample); smart-pointer classes returned by value with a registry, or with a helper, do not compile (C94_smart_value_counterexample, C94_smart_helper_counterexample); a copy return of a registered object gives the registered wrapper (C94_copy_counterexample).",
 "C95": "C95_value, C95_pointer_copy, C95_pointer_counted, C95_shared: every class and state; C95_pointer_steal_partial, C95_pointer_borrowed_partial: under the hypotheses named there; C95_refused, C95_supported, C95_compiles_partial, C95_written, C95_gil: refusals and the generated text. False as stated: constant references dangle (C95_reference_counterexample); a borrowed pointer dangles if nobody else holds the result (C95_dangerous_counterexample); an uncopyable object is taken without unregistering the wrapper (C95_registry_counterexample) or from a wrapper that does not own it (C95_borrowed_object_counterexample); a wrapper without object crashes (C95_empty_counterexample); plain pointers to classes in smart pointers do not compile (C95_smart_pointer_counterexample).",
 "C96": "C96_from_python_partial: every type, for fair arguments; C96_integers, C96_glib: the rest exactly; C96_refused, C96_accepted, C96_defined_partial: all calls; C96_to_python_partial and C96_round_trip_partial: every type but classes (see C94); C96_defined_once, C96_answered_partial, C96_right_function_partial: definitions, for every sequence of requests. False as stated: an exception of __bool__ stays pending with true stored, Glib buffers leak and zero bytes are refused, integer ranges are wrong for some types, wrappers without object crash (C96_from_python_counterexample); int8_t -128 and null pointers do not make the round trip; char* with free_after_copy cannot be generated (C96_free_counterexample) and leaves a name without a function (C96_missing_counterexample); colliding names and types that differ only in options share a converter (C96_shared_counterexample); a container declared twice raises KeyError (C96_container_counterexample).",
 "C97": "C97_constructor, C97_function: the exact effect of the code of every constructor; C97_slot: which tp_init is chosen; C97_type_partial, C97_first, C97_abstract_partial: calling the class; C97_dispatch: overloads; C97_creation: creation functions of bases; C97_helper; C97_inherited_partial: one base; C97_compiles_partial: one kind of pointer in the hierarchy, and plain pointers for helpers and functions. Limits: argument parsing, cleanups, the GIL and exception translation are C41, C42, C44, C73; creation functions of the user are opaque. False as stated: if no constructor can be generated tp_init is NULL and the base's is inherited, giving a base object (C97_skipped_counterexample) or none (C97_empty_counterexample); mixed memory policies (C97_policy_counterexample) and shared pointers with a helper (C97_shared_helper_counterexample) do not compile, nor do helper constructors for private constructors (C97_private_helper_counterexample); inherited constructors differ from C++ for protected ones and several bases (C97_inherited_counterexample); __init__ called again loses the first object (C97_again_counterexample).",
 "C98": "C98_effect_partial: what __copy__ does, from every state; C98_copy_partial: it is a copy for instances of the class itself without attributes; C98_refines: it is the event pyCopy of C45's histories; C98_entry: who has it; C98_compiles_partial. False as stated: instances of Python subclasses are copied to the base type (C98_subclass_counterexample); attributes are lost (C98_attributes_counterexample); wrapped subclasses without copy constructor inherit __copy__ and are sliced (C98_sliced_counterexample); a wrapper without object crashes (C98_empty_counterexample); classes in shared pointers do not compile (C98_smart_counterexample); post instance creation code is not run (C98_hook_counterexample).",
 "C99": "The ledger (Wrapper/Ledger.lean) counts, per variable, what the statements the handlers write acquire, hand over and free. C99_balanced_partial: for parameters nothing is acquired for before the call, the call is clean however it ends; C99_success_partial: calls that return are clean, also with ownership transfer, output containers and output references; C99 for results: void, numbers, strings, char* freed after copying, PyObject* owned or borrowed, containers, classes by value. Missing: class pointers returned (C94), parameters of overrides, the order of statements within a handler. False as stated: Glib::ustring parameters leak the parser's buffer on every call (C99_ustring_counterexample); strings created for the function, output containers, references to PyObject* with transfer and output references are lost when the call is refused or the function throws (four counterexamples); an object transferred to a function that throws is owned twice (C99_thrown_transfer_counterexample).",
 "C100": "Runtime/Dispatch.lean evaluates calls over the declared methods, helper classes, proxies, parent callers and method tables. C100_plain: objects made in C++; C100_not_overridden_partial: no override in Python; C100_super_partial: any chain of Python classes whose overrides call super any number of times, when the class from which Python derives declares the method itself, or the method has a parent caller (protected methods and deprecated_virtuals); C100_call_text: the call written. Missing: exceptions raised by overrides, multiple inheritance in Python, overloads of one name. False as stated: super() in an override of a method which only a base of the wrapped class declares calls itself for ever (C100_super_inherited_counterexample); naming a base class further up calls the override again, or is refused for protected methods (C100_named_base_counterexample, C100_named_protected_counterexample); a C++ override that was not declared is skipped (C100_undeclared_counterexample); a class that declares no virtual method gets no helper class, so overrides are never called (C100_no_helper_counterexample); super() of a pure virtual method calls itself for ever (C100_super_pure_counterexample).",
 "C101": "Register/Model.lean replays the registrations of CppClass, the memory policies, Enum and Container on the two registries of C18. Register/Props.lean, Types.lean: C101_class_partial, C101_enum_partial, C101_container_partial, C101_smart_pointer_partial: in every history, every spelling finds the own handler, if no other type was given the same name (short or full) before; C101_enum_accepted_iff: when an enum is accepted. Missing: names with template arguments (for smart pointers the condition on them is a hypothesis), the fallback to transformations. False as stated: a class in the global namespace loses all spellings of its full name to an earlier class with that short name in any namespace (C101_short_name_steals_counterexample); a global enum is then refused with ValueError (C101_enum_clash_counterexample); a container in a namespace is not found by pointer nor (return) by reference (C101_container_pointer_counterexample); plain pointers to, and the short name of, classes kept by smart pointers are not found (C101_smart_pointer_counterexample); the short name stays in the generated code (C101_short_ctype_counterexample).",
 "C102": "Exchange/Model.lean: the code fragments of the string handlers in reverse wrappers and the meaning of the lines they produce; Exchange/Body.lean: the text reverseGenerate produces is the text of that plan (body_plan). C102_exchange_partial, C102_text, C102_memory_partial, C102_transfer_partial: all of it for string parameters of every class and number and any string return class. Methods that mix strings with other parameters: C103. Missing: StdStringRefReturn (raises NotImplementedError in reverse wrappers). False as stated: a `char *` result points into the object Python returned after it was given up (C102_dangling_counterexample); the block PyArg_ParseTuple allocates for a Glib::ustring is never freed (C102_leak_counterexample); when the override of a void method fails, a string handed over is neither deleted nor passed on (C102_transfer_counterexample); when two strings are to come back (say a result and an output argument), no object Python can return is accepted, because the tuple is wrapped in a second tuple before it is parsed (C102_several_counterexample).",
 "C103": "Exchange/MixedModel.lean: the code fragments of the other non-class handlers in reverse wrappers and the meaning of the lines they produce; Exchange/MixedSpec.lean, the head of C103.lean: the specification. C103_exact: the exact behaviour of the plan whose text is that of the generated body (`generated`), for any mixture. C103_exchange_partial: the property, provided that no container is output only, `char *` and borrowed `PyObject *` are not returned, the truth value of the result can be determined, converters leave the container alone when they refuse an object, and overrides of methods without result return None. C103_references_partial: references handed over. Missing: enums, classes and their pointers (C81, C99), numbers whose handlers check a range after parsing; what converters accept is C96. Each proviso is needed: an object whose __bool__ raises counts as true and leaves the exception set (C103_truth_counterexample); None expected and something returned leaves the exception set (C103_none_counterexample); an output container makes an extra argument (C103_output_counterexample); a refused object can empty the container (C103_refused_counterexample); a borrowed PyObject * result dangles (C103_borrowed_counterexample); a transferred PyObject * is used up although the C++ implementation gets it afterwards (C103_references_counterexample); several values can never come back (C103_several_counterexample).",
 "C104": "Imports/Model.lean: the statements of the init functions about types, type maps and registries, for whole trees of modules, and an interpreter state with several extensions. C104_shared_partial: for any history of loads, the imported type is the exporter's, and with equal settings the type map and the registry too, for top-level classes of the root module whose attribute names are distinct. C104_narrowing_partial: classes derived in the importer are entered in the exporter's type map. C104_compiles_partial/C104_compile_counterexample: the block compiles except for an imported narrowing root without bases when registries are used (`_cobj` declared twice). Missing (false): a missing class is no error, its type is NULL (C104_missing_counterexample); the name after ' named ' is ignored (C104_named_counterexample); nested classes are looked for in the wrong place (C104_nested_counterexample); a different name_prefix (C104_prefix_counterexample); classes of submodules (C104_submodule_counterexample). Loading is Python 3's; circular imports and reference counts are not modelled.",
 "C105": "C105_bases_partial: for every tree of modules in which every class comes after the classes it needs (Ordered) and whose imported types exist, loading succeeds and __bases__ of every type are the declared ones. Missing (false): a base in a submodule loses its own base (C105_submodule_counterexample); a base imported by a submodule (C105_imported_counterexample); a base missing in the other module (C105_missing_counterexample). PyType_Ready is modelled as far as bases are concerned; metaclasses and slots are not.",
 "C106": "CppClass/HelperCode.lean: add_virtual_method, generate_forward_declarations and generate of CppHelperClass on top of the overload model (C22-C25), with code generation state and an arbitrary error handler that is a function of wrapper and exception. C106_defined, C106_overrides, C106_abandoned, C106_callers hold without restrictions; C106_callers asks that the wrappers for all methods of that name can be generated. C106_distinct_partial: no clash, if a method has the same Python name in every class declaring it and no name looks like a generated one. Missing (false): a method renamed in one class only is overridden twice (C106_renamed_counterexample). Function bodies are not part of this model; custom methods added by hooks and type names spelled differently for the same type are not covered.",
 "C107": "ClassIter/: cppclass_container.py (IterNextWrapper through generateBody, tp_iter, tp_dealloc, the slots and the registration), run on top of the process model of C45. C107_text: the three statements of tp_iternext, for all handlers. C107_iteration_partial/C107_defined_partial: exactly the elements in order, then StopIteration, while the object is alive and unchanged; C107_owner_partial: for wrappers that own their object this follows from the program not changing it or giving it away; C107_keeps_alive: references, all histories. Missing (false, counterexamples): object changed or given away during iteration, instances without __init__, iterators made by calling the iterator type (all undefined behaviour); null pointers as values of mappings give None without the key, char keys come after the value; nested classes (AttributeError), mappings between containers (AssertionError), a class called Foo_Iter beside Foo. Not modelled: reference cycles through an iterator (never tracked by the collector), C++ exceptions in the element conversions, threads.",
 "C108": "Wrapper/ProxyRelease.lean: all executions of the generated proxy release what they took, once, newest first, for all handlers that follow a rule on where they write exits and cleanups; C108_rule_*: the handlers of numbers, booleans and class parameters do. Runtime/VirtualCalls.lean: virtual calls, nested to any depth, added to the process of C45: C108_neutral_partial/C108_accounting_partial for objects owned by their Python object; C108_seen_and_restored for all. Missing (false, counterexamples): overrides that give their own object away or have it destroyed. Not modelled: C++ exceptions passing through a proxy, return handlers of strings and classes.",
 "C109": "C109_exact: the copy is exactly the declaration without throw, deprecated, unblock_threads and added custodians; C109_same_partial: without these options the wrapper is the same in every class; C109_signature, C109_defined. False with them (three counterexample theorems). Not modelled: functions added as methods (which have no such copies), the setting deprecated_virtuals.",
 "C110": "C110_plain_classes: in every legal history for classes without allow_subclassing that are not singletons, alive iff held, use count exact, nothing destroyed twice; C110_alive_while_held_partial: with allow_subclassing as long as the garbage collector clears no wrapper; C110_returned_partial, C110_one_wrapper_partial: what is returned. False for cleared wrappers (double destruction), singletons, a second __init__ and objects made by Python (counterexample theorems). Not modelled: helper classes (their code does not compile), pointer adjustment.",
 "C111": "C111_literal_exact: the C compiler reads a docstring back unchanged exactly when it has no quote, backslash, newline or NUL; C111_function_partial, C111_overloads_partial, C111_class_partial, C111_module_partial: for such docstrings every table entry is read back with the given docstring, or the signature; C111_kept, C111_conflict hold for all. False for other docstrings, overload sets without docstring, parent callers and an empty module docstring (counterexample theorems). Not modelled: trigraphs, line splicing, string literal concatenation with what follows, the __text_signature__ CPython strips from docstrings.",
 "C112": "C112_binary_partial, C112_inplace_partial, C112_negate_partial: exactly which registration is used (first that fits, of the nearest classes of the operands, in CPython's order), the result is a new object with the C++ value, nothing else changes, TypeError otherwise; C112_compare: comparisons exactly; C112_compare_same: a registered comparison of objects of one type is the C++ one. False: op= does not change the object (aliases keep the old value) and gives the base class for derived objects, a nearer registration hides those of the base, a registration that was given up hides them too, unary minus can give NotImplemented and is missing if it is the only operator, with == alone equal objects are also != (counterexample theorems). Not modelled: multiple inheritance of slots, operators of other Python types, sq_concat and the like.",
 "C113": "C113_names_partial: if nothing is asked for twice, constants fit in a long and enums are as in C58, the names after an import are exactly those declared and implied, with their things, everything else unchanged; C113_generation and C113_import_succeeds: exactly when generation and import succeed; C113_submodules_py2_partial. False: a function is always lost to another declaration of its name, XIter of a container hides a class XIter, constants of scoped enums and of classes hide others, constants are cut to 64 bits, no code for an inner class declared as a container, `import m.sub` fails under Python 3 (counterexample theorems, the first and last for all modules). Not modelled: refused tuples and None as values_prefix, reference counts of the bound types, members inherited through PyType_Ready of a base (C105).",
 "C114": "C114_read_partial, C114_write_partial, C114_roundtrip_partial: after every history, through the wrapped class or a Python class extending it by single inheritance, the attribute found along the first bases is the variable; C114_only_assignments, C114_kept: nothing else changes it; C114_python_classes: Python classes with several bases; C114_import, C114_import_single: the metatypes are never null at import. False: statics of a second base are not found, none is found on an instance, two unrelated classes with statics cannot both be bases of a Python class, other attributes can be assigned but a remembered failed lookup hides them (counterexample theorems). Not modelled: deletion of attributes, metaclass= in class statements, assignment to __class__ and __bases__.",
 "C115": "C115_value_partial, C115_owned_copy_partial, C115_owned_counted, C115_shared_ptr, C115_owned_taken_partial, C115_plain_partial: the exact effect of each handler; C115_refused; C115_generated, C115_not_supported: for which declarations code is generated; C115_rule: the handlers follow the rule under which C108 gives back everything on every path; C115_accounting_partial: all histories of events and of overrides returning usable objects (owning ones where no copy can be made). False: a plain pointer to an object only the override's result owned dangles, a constant reference always does, copies are sliced, None is refused where NULL is meant, objects without C++ object crash, taken objects stay registered and non-owned ones are taken (counterexample theorems). Not modelled: value transformations, custom instance creation functions.",
 "C116": "C116_links_partial: the files compile (as far as names go) and link, for all projects in which what is mentioned is registered and different things have different names; C116_header, C116_division, C116_generates, C116_same_container. The hypothesis MetasDeclared is needed: with a name prefix the metaclass of a class with static attributes is declared under another name than it is defined with, and does not compile from another section (C116_metaclass_counterexample). Not modelled: types and macros, texts of the user (custom wrappers, post-generation code, header, body); symbols are structured names (that different ones have different texts is C27, C32, C59, C76).",
 "C117": "C117_truthful, C117_clears, C117_untouched, C117_given hold for all legal histories; C117_keeps_partial, C117_clears_unused_partial, C117_freed_partial: for classes whose reference count tp_traverse can read (Sound) and if every object with references is tracked. Counterexamples: a peekref function is ignored (C117_peekref_counterexample), wrappers returned by C++ and iterators are never tracked (C117_untracked_counterexample), tp_dealloc does not untrack (C117_dying_counterexample). Modelled: the collector's algorithm, tp_traverse, tp_clear, what is tracked, m_pyself, transfer of ownership. Not modelled: finalizers that resurrect objects, weak references, tp_clear being declared void.",
 "C118": "C118_recognised: exactly when something is taken for an instance. C118_parameters_partial, C118_call_partial, C118_plain_partial: for all texts in which the name does not occur further to the left (needed: C118_substring_counterexample). C118_named_partial: names for instances with one argument; whatever contains a blank, so every instance with several arguments, can never be named (C118_blank_counterexample, for all header texts); nested arguments count as several parameters, the call is right nevertheless (C118_nested_counterexample). The demangler is not modelled; class templates are taken apart by pygccxml (not modelled).",
 "C119": "C119_belongs: what is looked up is the section the classifier wants. C119_section: the section is the one with the highest precedence. C119_section_found_partial: one is found for known labels without ties; ties between different sections raise TypeError (C119_equal_counterexample). C119_runs_iff: exactly when the divided script registers bases first (for scans that did); C119_runs_partial: sufficient condition on the classifier; sections run as listed, not by precedence (C119_precedence_counterexample). The scan order of one section's classes is C82/C87.",
 "C120": "C120_passes_iff: exactly which files pass. C120_none_lost_partial, C120_headers_only_partial, C120_exact_partial: right unless a neighbour's name begins with that of a whitelisted directory (C120_neighbour_counterexample) or a path begins with exactly two slashes (C120_slashes_counterexample). os.path.abspath is modelled as on POSIX; symbolic links are not.",
 "C121": "C121_once, C121_elements_first: at most once, only what is used, after the elements. C121_registered_iff: exactly when. C121_complete_partial, C121_flat_partial: always if the elements' classes are met first, as within one namespace; not for functions of an outer namespace (C121_namespace_counterexample) or an outer container used before the inner one (C121_inner_counterexample). C121_script_iff: the script runs exactly if everything was registered. C121_kind_partial/C121_priority_counterexample: operations. multimap and hash_map are never registered (part of Wanted). What pygccxml finds is input; type aliases are not modelled.",
 "C122": "C122_options, C122_refused_iff: every option, for all annotations. C122_order_partial (C122_order_counterexample): the order matters only between annotations for the same option. C122_counted_partial (C122_single_counterexample): both counting methods. C122_exception_iff: exactly which exceptions can be registered (C122_exception_counterexample). C122_subclassable_iff: exactly which classes can be subclassed (C122_base_counterexample, C122_second_counterexample). Reading annotations from comments is C83; the pygen_comment annotation is C85's matter.",
 "C123": "C123_method: methods, for all common calling conventions. C123_function_partial: functions with a text and the default flags (C123_function_without_text_counterexample for any set without one, any stack; C123_function_flags_lost and C123_function_flags_counterexample for other flags). C123_method_declaration_counterexample: declared and called with different numbers of arguments. C123_kept: which wrappers remain if conventions differ. Missing: docstrings (C48), errors of the ordinary wrappers (C22-C24), custom constructors (there is no public method to add one).",
 "C124": "C124_text_partial: single inheritance above the class, UTF-8 texts without zero bytes, initialised objects. C124_first_base: any class whose first base has an operator. C124_repr_iff and C124_source: every hierarchy. Counterexamples: operator of a second base (wrong subobject), zero byte (text cut), other encodings (UnicodeDecodeError), object without __init__ (null dereferenced). Missing: a __str__ of the user written in Python, exceptions thrown by the operator.",
 "C125": "C125_function_partial, C125_method_partial, C125_constructor_partial, C125_annotation_partial: specification or annotation, types by value without const or by reference with any const. C125_accounted: in general, every type of a function's specification is caught or reported, and only named exceptions are caught. Counterexamples: const by value, functions that become methods or constructors, annotations with template commas or relative names, annotation together with a specification (and on constructors, C84). Missing: the order of handlers for base and derived exceptions (C73), texts that are no types.",
 "C126": "C126_called_partial: functions with a Python name of their own, in an output whose C names differ; overloads in the order added. C126_inherited_partial: the same call on instances of derived classes that find the method along their ancestors. C126_accepted: exactly which functions are accepted. Counterexamples: no custom name or the function's own (the method is called None), the same name in two classes (one C symbol), classes with several bases (the copied wrapper uses an undeclared self and an unqualified callee). Missing: keyword arguments, defaults and implicit conversions (C80), failing generation (C68).",
 "C127": "C127_agree_partial: all answers of every orderly history (no second definition without a fresh start) are those of a wrapper generated once; flags of wrappers that catch exceptions and whose return handler needs an assignment constructor are excepted (function.py:241-243 changes the handler). C127_failed_partial: failures, same exception. C127_afresh: reset of any reached state. C127_functions: functions with class and integer parameters, integer results and a ward fit, with any names and numbers. Counterexamples: a definition written twice, a return handler shared with a wrapper that catches exceptions. C127_overrides_partial: overrides of virtual methods (ReverseWrapperBase, CppVirtualMethodProxy): after any number of trials the text, or the exception, is that of an override generated at once, although a trial leaves its error return behind (base.py:580-586); their handlers must not remember names. C127_override_twice_counterexample: without a fresh start the second one fails. C127_overloads_partial: wrappers of overload sets, whose set changes force_parse, the parsing error return and the C parameters at any time (overloading.py:96, 170, 180, 184): a declaration is always, a definition and the flags after a fresh start, those of a new wrapper with the settings it then has. C127_constructors_partial: the same for constructors. C127_flags_partial: every answer about the flags, also of wrappers catching exceptions, is the one the arguments call for (flagsOf), for handlers whose taking of arguments does not depend on variable names (C127_functions_take). C127_functions_agree: for functions with class and integer parameters and an integer result, with any names, numbers and wards, whether they catch exceptions or not, whether the handler changes or not, nothing is excepted: flags, declarations and definitions all agree; C127_calls_agree: the same with the call as function.py:179-221 writes it (void, templates, namespaces, catch clauses). Missing: that trials of other wrappers catching exceptions whose return handler needs an assignment constructor do not fail where the definition succeeds; handlers shared with such a wrapper (counterexample)."
}