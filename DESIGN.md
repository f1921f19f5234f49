# Formal model of asn1crypto in Lean 4 — design

Source: `/repo/asn1crypto` (read as text, never run). The Python 3 code paths are modelled.
Model, specifications and proofs are in `/verif/lean/Verif`.

## Layout

* `Verif/Model/*.lean` — the model: total computable functions that follow the Python functions
  branch by branch, Python exceptions are values (`Except PyErr α`). Every definition cites file:lines.
* `Verif/Spec/*.lean` — small specifications that do not use the model (value of a byte string,
  X.690 grammar, calendar day counts, abstract lists/sets/maps).
* `Verif/Lemmas/*.lean` — helper lemmas.
* `Verif/Props/*.lean` — the property theorems (named in `MANIFEST.json`), with non-vacuity `example`s.

## Representation choices

* Python `bytes` = `List UInt8`; Python `int` = `Int`/`Nat` (unbounded, as in Python); `str` = `List Char`
  or `String` (surrogates excluded).
* A raised exception = `Except.error e`, `e : PyErr` names the Python exception class. Messages are dropped.
* Dynamic type checks (`isinstance`) are mostly resolved by the typing of the model; where the check decides
  between accepted shapes (e.g. `int` vs `str`), the input is a sum type.
* Mutable objects are records; a method that mutates returns the new record.

## Plan per property

| id | what is modelled | how it is proved |
|----|------------------|------------------|
| C01–C05 | `parser.py` complete, pointer based | suffix-based reformulation + induction; BER grammar as an inductive relation |
| C06 | `util.int_to_bytes/int_from_bytes` (py3), `fill_width` | strong induction on the magnitude, spec = positional value |
| C07 | `Integer`/`Enumerated` set/native incl. `_map` | corollary of C06 + association list lemmas |
| C08 | `Boolean` | case analysis |
| C09, C10 | `ObjectIdentifier` set/dotted/map/unmap and caches | base-128 codec induction; string split/join |
| C11, C12 | `BitString` | bit list/number codec |
| C13 | `Constructable._merge_chunks` on chunk trees | tree induction |
| C14 | integer octet/bit strings | C06 |
| C15–C24, C44, C45 | generic schema-driven encoder/decoder (`_build`, `_parse_build`, Sequence, SequenceOf, Set, SetOf, Choice, tagging) and object histories | structural induction over schema/values, refinement to lists/maps |
| C25, C26 | `pem.py` on lines | induction over lines; base64 as a concrete codec |
| C27–C29, C48 | `UTCTime`, `GeneralizedTime`, `extended_date(time)`, `create_timezone` | digit codecs, day-count arithmetic |
| C30, C31 | `_inet.py`, `IPAddress` | run-compression inverse |
| C32–C36, C46 | decision logic of `x509.py` | spec predicates |
| C37, C38 | `DSASignature`, `_ECPoint` | C06 |
| C39, C40, C42 | tables of `algos.py` | whole-table kernel evaluation lifted by lemma + branch analysis |
| C41 | teletex table | whole-table kernel evaluation lifted to strings |
| C43 | percent encoding | induction over characters |
| C47 | py2 `OrderedDict` linked list | refinement to association list |
| C49 | `ECPrivateKey.__setitem__`, `set_key_size`, `ECDomainParameters.key_size`, `NamedCurve` tables | invariant over histories of operations, on top of C14 |
| C50 | `load`, `_build`, lazy children, `native`, item access of all kinds of instances | `Enc` (Spec/Enc.lean) defines encodings of values of all kinds of types; by induction on it, every encoding is loaded into an instance of a relation closed under reading (coinduction) |
| C51 | All class definitions of the package (442 classes with their fields, alternatives, tags, defaults, maps and OID-dependent specs) as data, generated from the source text (Model/Package.lean); the conversions of strings and times are arbitrary. | A test of definitions is proved to imply that they are sound (C50), and the kernel computes it for the 436 classes that are; the constructed default values are computed too. Corollaries of C50. The exceptions are shown to be wrong. |
| C52 | the tables of all 442 classes (Model/Package, generated) with the model of `set` and `native`; an OID class has its `_reverse_map` and whether it overrides `_setup` | Spec/Tables says what a name stands for; boolean checks of distinctness and dotted form over all classes, run by the kernel and lifted by soundness lemmas (Lemmas/Tables, PkgTables), then C07, C10 and C12. Partial: the four classes below are exceptions |
| C53 | the container model of Model/Core with all kinds of types, `construct`, `dump`, `loadVal`, and all classes of Model/Package | Spec/Give: relation `Gives` between a Python value, what it is made of and the value it stands for, `DerElement` for the tags. Lemmas Pending*, Made*: an invariant of new instances (what they will dump) is established by every constructor, kept by retagging and copying, and gives the bytes; GiveEnc: those are an encoding in the sense of C50, so they load. Partial: optional fields of a SET must be given, SET fields have types with one tag and no explicit tags, instances given for an ANY are primitive and the field has no explicit tag, a CHOICE cannot be the content of a string; class-specific `set` methods of x509 and keys are not in the class model; values built in several steps are the subject of C44 |
| C54 | the attributes of `PrivateKeyInfo` and `PublicKeyInfo` with their caches, on the native values of the fields they read (Model/KeyInfo) | arithmetic from assumptions on `math.log` in double precision (`LogsOk`), which the exact logarithm satisfies; invariant of the caches over all orders of reading. Partial: numbers near powers of 256 are excluded; EC private keys, compressed points and other algorithms violate the property, and attributes are stale after changes |
| C55 | `wrap` of both classes for RSA keys, the `__setitem__` of the algorithm identifiers and of PrivateKeyInfo, on the package classes of Model/Package | the containers are shown equal to those made from a dict of instances, which `Gives` (C53) describes; the key field is decided by the algorithm (C50); results then follow from C53 |
| C56 | The conversions and comparisons of DNSName, URI, EmailAddress and IPAddress and GeneralName.__eq__ are transcribed (Model/GenName.lean). The IDNA codec is transcribed for ASCII text and octets without xn--; for other text it is a parameter, as is the lower case of text that is not ASCII; iri_to_uri and uri_to_iri are those of C57. | Round trip for all ASCII texts with valid labels; comparison by the split at the last @ and case folding of octets, lifted to text; symmetry, transitivity and repetition for all kinds, where directory names use C35. |
| C57 | `iri_to_uri` and `uri_to_iri` with `urlsplit`, `urlunsplit`, the host name and port properties and the ASCII paths of the IDNA codec of the standard library (Model/Url.lean). The IDNA codec and the lower case of text that is not ASCII, NFKC and the test of bracketed addresses are parameters. | `Spec/Url.lean` has the parts of RFC 3986, their text and what a component means. The text of valid parts is taken apart again at its delimiters (`urlsplit_text`), quoted components have no delimiters of their own, and the theorems of C43 give the meaning of each component. |
| C58 | `Primitive.__eq__` with the base classes as a parameter (Model/Equal.lean) | case analysis; for built values the contents octets are the DER ones (C53), which determine and are determined by the value |
| C59 | `Name.human_friendly`, `_recursive_humanize`, the labels of `NameType` (Model/Human.lean; values abstract with their native form) | invariant of the loop: the dict has the labels in the order of first occurrence with the values nested in order |
| C60 | `Certificate.issuer_serial`, `authority_issuer_serial` with their caches (Model/Issuer.lean), the hash a parameter; `untag` of a CHOICE (Model/Core.lean) | invariant of the caches over histories of reads; the last colon splits the identifier uniquely |
| C61 | Nothing new: item access, `dump` and `load` of Model/Core.lean. `Spec/Patch.lean` describes a document under change part by part (`Doc`), the effect of a change (`DocEdit`) and the octets to be written (`DocBytes`) | a relation between instances and documents (`Stands`) that is kept by every change (`edit_stands`), and from which `dump` gives the octets (`dump_stands`); C50 for reading, C53 for the assigned values. Not covered: assignments to a field whose type another field decides, changes inside the deciding field, reads and dumps between the changes, changes inside a CHOICE (C44_in_choice shows these are lost), opened lists with elements of CHOICE or ANY type |
| C62 | `_setup` of CHOICE, value maps, SEQUENCE and SET with the check of `_SETUP_CLASSES` as instructions of threads over shared attributes and objects (Model/Setup) | invariant over all schedules: for every key there is a thread that will still store its last value, or the table holds it (Lemmas/SetupRace); a measure that falls with each step; execution by one thread computed for all declarations (Lemmas/SetupAlone, SetupTables). Partial: the code violates the rest, with schedules as witnesses |
| C63 | `CertificateChoices.validate` on top of the model of the package's classes | first element of a SEQUENCE read without a definition; case distinction on its tag; comparison with the load of the plain CHOICE |
| C64 | `wrap` for DSA keys in the classes of the package (`Model/KeyWrap.lean`), the two structures as elements (`Spec/DsaWrap.lean`) | Step by step: the children found in the contents, each setting of a field, the contents computed at each setting, the final dump; reading back by C51. |
| C65 | `wrap` for EC keys in the classes of the package (`Model/KeyWrap.lean`), the two structures as elements (`Spec/EcWrap.lean`) | Step by step: the children found in the contents, the copy, the deleted field, each setting of a field with the contents computed at it, the width, the final dump; reading back by C51. |
| C66 | `_ldap_string_prep` is modelled step by step with the Unicode tables as parameters (Model/Name.lean). Spec/Prep.lean has the ranges of the RFC as lists, what is prohibited, and the result of the last step. | Each substitution is an arithmetic condition on the code point; their composition is compared with the ranges of the RFC by linear arithmetic. The tables are only assumed not to produce white space other than spaces. |
| C67 | `__reduce__` and `unpickle_helper` on the values of Model/Core (Model/Pickle) | from C15 (what is written after reading), C16 and C53, with an induction over the accesses that reading keeps the class. Partial: conditions of C15 and C53; values with field tags and absent fields violate the property |
| C68 | `cast` on the values of Model/Core (Model/Cast) | case analysis over the string classes: the cast of a loaded value equals the value loaded with the other class (C68_load, C68_read), the encoding of primitive values is kept (C68_dump_partial). Partial: implicit tags are lost, so bytes of values without a header or in indefinite form are kept only without implicit tag |
| C69 | `__contains__` with the comparison of Model/Equal (Model/Contains) | induction over the loop with C58; for loaded lists the elements of the encoding (Lemmas/Elements). Partial: elements that are not primitive are compared by identity, other BER forms are not found |
| C70 | the properties with their caches, with the hash function as a parameter (Model/Fingerprint) | induction over the history of reads with C15 for the package; induction over the digest for the text. Partial: conditions of C15; the property is false after changes and for public keys |
| C71 | the list of children with None for what is missing, construction, item access, assignment and dump (Model/Concat) | induction over the values given and over the children; splitting by C45. The property is false for classes and for values that are missing |
| C72 | the properties with their caches, each read of the decoded structure as a value or an exception (Model/CertNames, on top of Model/Cert) | invariant of the caches over all histories of reads; the lists are those of C32. Partial: names that can be decoded, because the property is false for others |
| C73 | attribute lookup along the method resolution order, `_setup` and `_SETUP_CLASSES` (Model/Inherit) | invariant over histories of uses. Partial: hierarchies with one map along each order, and classes used before their bases; the property is false for others |
| C74 | `Sequence.spec` with the two ways of deciding, by `_oid_pair` and by a callback (Model/SpecOf) | case analysis; the accesses made are read accesses in the sense of C15. Partial: values loaded and not read are refused when `_oid_pair` decides |
| C75 | the tagging part of the constructor with all forms of arguments, the conversion of old params, and `_build_id_tuple` (Model/TagArgs) | case analysis over the documented forms; the result is the tagging that the rest of the model starts from. Partial: unknown names in explicit tags, params with `class_`, params with several explicit tags |
| C76 | the five attributes as functions on values of the package (Model/Shortcuts); zlib is a parameter | induction on the path of names; the accesses made are read accesses in the sense of C15. Partial: signed PKCS#12 files, responses without response bytes, and assignments after the first reading are refuted |
| C77 | the three dicts of the class with their order of insertion, registration and first use as events (Model/Curves) | induction on the history; invariant: both tables hold exactly the pairs registered so far. Partial: OIDs registered again with another name, and names registered again for another OID, are refuted; C10 has the encoding side for one registration |
| C78 | the attribute as a function on values of the package with the cache of `algorithm` (Model/CurveOf) | composition of the lemmas of C76 on paths of fields; the accesses made are read accesses in the sense of C15. Partial: keys without parameters and keys whose algorithm was assigned after reading it are refuted |
| C79 | the Python 2 functions with their hexadecimal text (Model/Util2) | the octets by way of the text are the shortest ones (induction on n / 256); then lengths and values are compared. Partial: negative numbers whose absolute value is an octet FF followed by others that are not all zero are refuted, with exact condition, as are widths that are too small |
| C80 | `set`, `native`, construction and `dump` of the two classes (Model/Status) | dump is shown to be that of NULL for all objects, so that what is proved of NULL holds for the states. Partial: that only empty contents are loaded is refuted |
| C81 | `timezone` of Python 2, `_UtcWithDst`, and `tzinfo.fromutc`, `datetime.astimezone` and the names of zones from the standard library (Model/Timezone) | linear arithmetic on microseconds for the accepted offsets and names; `fromutc` with no daylight saving is one addition, so that the conversions are those of Model/Time |
| C82 | `dotted`, `native`, `set` and `dump` as before (Model/Oid); a small grammar of complete subidentifiers for arbitrary octets | induction on the grammar, which splits every octet string in exactly one way. Partial: contents that X.690 does not allow are accepted, which is refuted, and a forced dump of contents without a complete subidentifier raises ValueError |
| C83 | `RelativeOid` is `ObjectIdentifier` with the tag 13 (Model/Oid, Model/Package) | a specification of the contents after X.690 8.20, compared with what C09 and C82 say of the class. Refuted: for no list of arcs are the right octets written, and no contents are read as their arcs. Partial: texts that are OIDs survive dumping and loading |
| C84 | the three classes, which are `Primitive` with a tag (Model/Opaque) | which encodings load, from the grammar of C01; the last octet of a definite length is 80 exactly when the length is 128 modulo 256. Partial: all other lengths are written as read. Refuted: those lengths, `.native` and `dump(force=True)` |

## Containers (C15–C24, C44)

`Model/Core.lean` models classes as data (`Env`: class number to `Shape`, that is primitive type, SEQUENCE/SET with fields,
SEQUENCE OF/SET OF, CHOICE, ANY, parsable strings), instances as values (`Val`), and every method as a function that returns the
instance afterwards. Methods of nested values are called through `Ops`, and `ops E n` allows `n` levels of nesting; theorems hold for
all `n` above the depth of the value. What `ops E n` gives, `ops E m` gives for every larger `m` (`ops_mono`,
`Lemmas/OpsLe.lean`), so the number of levels decides only whether there is a result, not which. Objects have no identity: a child that is changed is put back into its container by
`putChild`, so two containers that hold the same object are not modelled.

* `Spec/Schema.lean`: values (`AVal`) and what their encodings are (`Dec`), for any schema.
* `Spec/Universe.lean`: the schemas the theorems are about. SET, ANY, parsable strings, fields whose type another field selects,
  and defaults that are not primitive are outside; C20, C21 and C23 treat SET, SET OF and parsable strings separately.
* `Spec/Given.lean`, `Spec/History.lean`: which Python values stand for which values, and what operations do to values.
* `Lemmas/Rep*.lean`: `Rep` relates instances to values, and every operation preserves it. `Lemmas/Works*.lean`: operations that make
  sense on the value succeed.
* `Spec/Faithful.lean`, `Spec/Wary.lean`, `Lemmas/Keep*.lean`, `Lemmas/Wary.lean`: which elements keep their bytes, and for the
  package, which accesses (those that meet no DEFAULT of constructed type) keep them.
* `Spec/Der.lean`, `Lemmas/Der*.lean`: the DER encoding of a value, which is unique, and which forced dumps write.
* `Spec/Parts.lean`, `Lemmas/Parts.lean`: the octets that the fields of any SEQUENCE contribute to its encoding.
* `Spec/Enc.lean`: encodings of values of all kinds of types, with SET, ANY, parsable strings, fields whose type another field selects
  (by `_oid_pair`, `_oid_specs` or a spec callback, which is modelled as a table from the name in the other field to a class) and constructed
  defaults; sound definitions (`Types`); instances that can be read (`Readable`). `Lemmas/Enc*.lean` prove C50.
* `Spec/Forced.lean`: what `dump(force=True)` should write for an encoding of a value of any kind of type, and instances that can be forced and read
  in any order (`Forceable`). `Lemmas/Force*.lean` prove the second part of C24.
* `Model/Package.lean`: the class definitions of the package, generated from the source text. `Lemmas/TypesCheck.lean`: a test that implies
  `Types`. `Lemmas/PkgTypes.lean`: the kernel computes it (`kernel_rfl` in `Lemmas/KernelRfl.lean` is `Eq.refl` checked by the kernel).

## Coverage

What is modelled of each file of `/repo/asn1crypto`, and what is not.

| file | modelled | not modelled |
|---|---|---|
| `util.py`, `_int.py`, `_inet.py` | `int_to_bytes`, `int_from_bytes`, `fill_width`, `inet_ntop`, `inet_pton`, `_format_offset`, `create_timezone`, `extended_date`, `extended_datetime` (construction, formatting, replacement, comparison, arithmetic; `timestamp` without the rounding of floats); the Python 2 versions of the two integer conversions and of `timezone`; `_UtcWithDst` | |
| `parser.py` | all: `emit`, `parse`, `peek`, `_parse`, `_dump_header` | |
| `pem.py` | `armor`, `unarmor`, `_unarmor`, `detect` | |
| `_ordereddict.py` | all | |
| `_teletex_codec.py` | both tables and the codec functions | registration with `codecs` |
| `_iri.py` | all four functions, with `urlsplit`, `urlunsplit` and the other functions of the standard library they call (IDNA for ASCII text; the rest of IDNA and NFKC are parameters) | Python 2 branches |
| `core.py` | `load`, `cast`, pickling, item access and assignment of `Concat`, `Primitive.__eq__`, all tagging arguments (the old ones too), `_build`, `_parse_build`, `_fix_tagging`, `_build_id_tuple`, Boolean, Integer, BitString, OctetBitString, IntegerBitString, OctetString, IntegerOctetString, parsable strings, Null, ObjectIdentifier, Enumerated, character strings, UTCTime, GeneralizedTime, Sequence, SequenceOf, Set, SetOf, Choice, Any, Concat, EmbeddedPdv; ObjectDescriptor, InstanceOf and Real (in Model/Opaque.lean only: in Model/Package.lean a value of the tags 7, 8 or 9 that is loaded without a spec is a `ValueError`, where the code builds these classes); dump, native, contents, copy, retag, untag, item access, append, insert, iteration, membership, construction from Python values; `_setup` and `_SETUP_CLASSES` under threads | debug output, `__repr__`, object identity |
| `algos.py` | the algorithm classes' `hash_algo`, `signature_algo`, `encryption_*`, `kdf*` attributes and tables, `_ForceNullParameters`, DSA signatures to and from P1363; all class definitions | |
| `keys.py` | `ECPoint` coordinates, `NamedCurve` widths, EC private key widths, registration of curves, key sizes and hash families, `wrap`, `curve`; all class definitions | |
| `x509.py` | `Name` (build, comparison, native, the prepared form, the text for people), `IPAddress`, conversions and comparison of `DNSName`, `URI`, `EmailAddress` and `GeneralName` (the IDNA codec for ASCII text), host and IP matching, extension summary, self-signed tests, `issuer_serial`, `authority_issuer_serial`, URL lists, `valid_domains`, `valid_ips`, `ca`, `max_path_length`, fingerprints, `TrustedCertificate` (loading and dumping); all class definitions | the conversions as part of `Model/Package.lean`, where they are parameters |
| `crl.py`, `ocsp.py`, `csr.py`, `cms.py`, `tsp.py`, `pkcs12.py`, `pdf.py` | all class definitions; extension summaries and URL lists of CRLs and OCSP messages; `RevokedCertificate.issuer_name`, `CRLReason.human_friendly`, `Pfx.authenticated_safe`, `CompressedData.decompressed`, `OCSPResponse.basic_ocsp_response`, `response_data`; `CertificateChoices.validate` and `StatusGood`, `StatusUnknown` (both apart from Model/Package.lean) | – |

The model is of Python 3, apart from the integer conversions of Python 2 in `Model/Util2.lean` and its time zones in `Model/Timezone.lean`.

## Trusted base

* Lean 4.33.0 kernel. Axioms: at most `propext`, `Classical.choice`, `Quot.sound`. No `sorry`, no added axioms,
  no `native_decide`/`bv_decide`.
* The reading of the Python code (the model is written by hand; citations are beside each definition).
* Python's built-in semantics as transcribed in `Verif/Model/Py.lean`.
* `_dump_header` for contents of `256 ^ 127` bytes or more is an `OverflowError` in the model (in Python the length octets
  would need a first octet above `0xff`). Theorems that say that something succeeds (`Works`) allow for this error only.

## Disagreements found between code and property

Each line names the theorem (or example) that exhibits the disagreement in the model. Where none is named the
observation comes from reading the code.

| Property | Observation | Theorem |
|---|---|---|
| C09 | A dotted string with one arc, a negative arc, or a second arc of 40 or more under root 0/1 is accepted by `set` and does not round-trip; `contents` with non-minimal or truncated subidentifiers are accepted. | `C09_refusal_fails`, `C09_history_fails` |
| C12 | `BitString` with a map silently ignores names that are not in the map; set bits outside the map are dropped by `native`. | `C12_unknown_name_accepted`, `C12_unnamed_bit_dropped` |
| C13 | Definite-length constructed strings are refused when a spec is given; `23 80 00 00` raises `IndexError` for octet bit strings. | `C13_definite_fails`, `C13_octet_bits_fails` |
| C16 | An implicit tag given together with an explicit tag is silently ignored. | `C16_implicit_ignored` |
| C16 | A class with class-level explicit tags and an implicit tag argument dumps an encoding that it refuses to load. | `C16_class_explicit_implicit` |
| C16 | A container may be loaded with fewer wrappers than it was written with when the wrapper has the identifier of the container. This is inherent in implicit tagging. | `C16_mismatch_prefix` |
| C30 | `inet_pton` refuses the text of every IPv6 address whose compressed run is at the beginning or end (`::1`). | `C30_v6_edge_all` |
| C30 | An out-of-range group or too many groups raise `struct.error`; some malformed text is accepted. | `C30_refusal_fails` |
| C31 | With `_inet.py`, `IPAddress('::1')` is refused. | `C31_shim_loopback` |
| C25 | A header name with a colon is split in the wrong place when read back; an empty object type is written but refused on reading. | `C25_colon_fails`, `C25_empty_type_fails` |
| C26 | The closing line is not compared with the BEGIN line: any line that starts with five dashes closes a block, also the BEGIN line of the next block, which is then lost. A last block that is cut off is dropped without an error if an earlier block was complete. | `C26_begin_closes`, `C26_cut_off_block` |
| C32 | The text of a wildcard label is put into a regular expression without escaping, so a name such as `a\|*.example.com` covers every host under `example.com`; `$` lets a left-most label with a final line feed match. | `C32_metacharacter_fails`, `C32_line_feed_fails` |
| C32 | An empty subject alternative name extension counts as absent, so the common name is used. | `mem_validDomains` (definition `DnsName`) |
| C28 | With glibc, whose `%Y` is not padded, years before 1000 are written with fewer digits and read back as another time or not at all. | `C28_glibc_fails` |
| C28 | A `datetime` of year 1 whose instant lies in year 0 raises `OverflowError` when set, although `GeneralizedTime` supports year 0. A text that rounds up to the year 10000 raises `OverflowError`. | `C28_early_fails`, `C28_round_up_fails` |
| C29 | A year-0 time plus a timedelta is an `OverflowError` if the result is after the year 7999. | `C29_add_fails` |
| C48 | The seconds of an offset are not printed (rounded down, so 90 seconds west prints as `-00:02`). | `C48_seconds_dropped` |
| C37 | The empty string, read as P1363 data, gives r = s = 0, which is not written back as the empty string. | `C37_empty` |
| C38 | `from_coords` takes the width from a rounded-up logarithm, one byte too few at powers of 256: coordinates (1, 1) or (256, 256) raise `OverflowError`. | `C38_one_fails`, `C38_byte_fails`, `C38_exact_fails` |
| C39 | `hash_algo` of RSASSA-PSS without parameters is a `TypeError`. | `C39_pss_absent` |
| C40 | `KeyError` instead of `ValueError` for RC4, RC5 and RSA names; RC2 without version is a `TypeError` and a version of 256 or more is returned as a number of bytes; the PRF of `aes*_wrap_pad` is `wrap`; the salt of scrypt is an `AttributeError`. | `C40_key_error_fails`, `C40_rc2_fails`, `C40_wrap_pad_fails`, `C40_scrypt_salt_fails` |
| C42 | Assigning the algorithm by its index 0 does not fill in NULL. | `C42_index_fails` |
| C15 | A value of definite length whose length octets end in `0x80` (long form of a length that is 128 modulo 256) is taken for one of indefinite length and re-encoded. | `C15_length_128_fails` |
| C15 | Further bytes inside an explicit wrapper are accepted on load; `dump()` drops them but keeps the wrapper's length, so the output is not well-formed. | `C15_wrapper_junk_fails` |
| C15 | Of several explicit headers around a Choice only the outermost is kept. | `C15_choice_wrappers_fails` |
| C15 | Reading one field of a SEQUENCE, another field of which is of SEQUENCE type, absent and has a DEFAULT (RSASSA-PSS parameters, PBKDF2, ESSCertIDv2), marks the SEQUENCE as mutated, so `dump()` re-encodes it. | `C15_default_sequence_fails`, for RSASSA-PSS parameters `C15_pss_fails` |
| C15 | `dump()` of an `Any` that has not been parsed parses it without a spec, and raises `ValueError` if its tag is not a universal one. | `C15_any_dump_fails` |
| C43 | An escaped percent sign followed by two hexadecimal digits loses one level of escaping (`%2541` becomes `%41`), also a stray `%` before an escape. | `C43_escaped_percent_fails`, `C43_stray_percent_fails` |
| C43 | `NUL`, or `%00`, together with an escape that is not UTF-8 raises `IndexError`, because `NUL` is the place holder for escapes. | `C43_nul_fails`, `C43_nul_order_fails` |
| C43 | U+001A in a path comes back as `/`; U+001A and U+001C in a query as `&` and `=`. | `C43_placeholder_fails` |
| C33 | `'no'` is cached before the decision is made: if the first read of `self_signed` raises (a name that cannot be prepared, an extension that cannot be read), the next read returns `'no'`. | `C33_raise_fails` |
| C46 | A distribution point with several URLs is listed once per URL, and the scheme of the URLs is not looked at. | `C46_repeated_fails` |
| C46 | In a CRL, a delta distribution point without a name is an `AttributeError`; after an error the next read of `delta_crl_distribution_points` or `issuer_cert_urls` returns the elements before the error. | `C46_unnamed_fails`, `C46_issuer_raise_fails` |
| C35 | If a type occurs twice in an RDN only the last value is compared, so RDNs with different values are equal, the order matters, and `hashable` does not see how often the type occurs. | `C35_repeated_fails`, `C35_repeated_hash_fails` |
| C35 | `hashable`: an empty name and a name with one empty RDN agree; byte string values are not prepared and can contain the separator; a BOOLEAN and an INTEGER are equal with different strings. | `C35_empty_fails`, `C35_bytes_fails`, `C35_bool_fails` |
| C35 | The range U+FE0F–U+FF00 in the map step (RFC 4518: U+FE00–U+FE0F) removes Arabic letters: different names are equal. | `C35_letters_fails` |
| C36 | `Name.native` caches an empty dict before it decodes the RDNs: if that raises, the next read returns an empty dict. | `C36_native_raise_fails` |
| C45 | A child of a `Concat` for which there were no bytes is an instance without contents; `dump()` then raises `TypeError`. | `C45_missing_dump_fails` |
| C21 | A SET accepts a repeated field: the last occurrence silently wins. | `C21_duplicate_fails`, `C21_duplicate_witness` |
| C21 | A loaded SET whose field was assigned cannot be dumped: sorting the untouched (lazy) children is an `AttributeError`. | `C21_changed_dump_fails` |
| C22 | An alternative in indefinite-length form is refused with `ValueError`. | `C22_indefinite_fails`, `C22_indefinite_witness` |
| C22 | An untagged CHOICE used as an alternative is never selected, and when nothing matches the error is a `KeyError` (formatting its missing tag) instead of a `ValueError`. | `C22_nested_fails` |
| C22 | An alternative whose class has an explicit tag is looked for under the inner tag, so its own encoding is refused. | `C22_class_explicit_fails` |
| C22 | A CHOICE with class-level explicit tags refuses instances of its alternatives as value, unless these happen to carry its outermost tag. | `C22_instance_fails`, `C22_instance_witness` |
| C23 | `set()` keeps the payload parsed before: `.parsed` and `.native` stay stale, and `dump(force=True)` writes the old payload over the new octets. | `C23_stale_fails`, `C23_stale_witness` |
| C23 | A payload changed in place is not written by `dump()` unless forced. | `C23_in_place_fails` |
| C17 | Elements of a SEQUENCE after those of the last field are accepted and appear in `native` under their position. | `C17_extra_accepted` |
| C17 | A SEQUENCE with a required field missing is refused by `dump()`, but inside an explicitly tagged field it is written without the field. | `C17_missing_written` |
| C19 | Assigning to the index `len(value)` appends; a list raises `IndexError`. | `C19_set_end` |
| C44 | Reading `native` of, or dumping, a nested container after it was changed clears its changed mark, so the outer `dump()` writes the old bytes. `copy()` of the nested container does the same. | `C44_nested_dump`, `C44_nested_native` |
| C44 | A change in a container inside a CHOICE is not written by the outer `dump()`. | `C44_in_choice` |
| C44 | After a change of what a CHOICE with explicit tag has chosen, `dump()` keeps the length of the explicit tag; what is dumped does not load. | `C44_tagged_choice_fails` |
| C44 | `copy()` and `retag()` copy the cached `native` of a container but not its children: changing a nested value of the copy leaves `native` of the copy stale (`dump()` is right). The model has no such cache. | |
| C24 | `Null.dump(force=True)` keeps the header it was loaded with; for a NULL with contents octets only the header is written, which cannot be loaded. | `C24_null_kept`, `C24_null_cut` |
| C24 | Forcing a BIT STRING with names drops set bits that have no name. | `C24_named_lost` |
| C24 | Forcing a SEQUENCE drops elements after those of the last field, which `native` has. | `C24_extra_dropped` |
| C24 | Forcing a loaded SET raises `AttributeError` unless it was read before; one of indefinite length cannot be dumped at all. | `C24_set_fails` |
| C24 | Forcing a SEQUENCE of no particular class keeps the encoding of its elements. | `C24_open_kept` |
| C24 | What is inside a string is encoded again only if it was looked at before. | `C24_inner_kept` |
| C24 | Forcing a BIT STRING that is read as octets or as a number writes whole octets: the number of bits changes. | `C24_bits_fails` |
| C49 | On a loaded `ECPrivateKey` the curve that is already there is not looked at: a newly assigned private key is written in its shortest form. | `C49_loaded_ignored` |
| C49 | `key[1] = n` (assignment by index) bypasses the width handling. | `C49_index_bypasses` |
| C49 | `set_key_size` after `dump()` or `load()` does not mark the key as changed: the next `dump()` writes the old octets. | `C49_set_key_size_stale` |
| C49 | Without curve parameters the first private key of two or more octets fixes the width; a longer one is refused with `OverflowError`. | `C49_first_fixes` |
| C49 | A private key that was refused with `OverflowError` stays assigned, and is dumped in the wrong width if the exception is caught. | `C49_refused_stays` |
| C51 | `EDIPartyName` (x509.py) gives the CHOICE `DirectoryString` implicit tags: reading `party_name`, which every value has, always raises ValueError. | C51_not_EDIPartyName |
| C51 | `ExtensionAttributes` (x509.py) is a SequenceOf; the standard has SET OF. `ORAddress` is therefore ambiguous: extension attributes without domain-defined attributes are read as domain-defined attributes. | C51_not_ORAddress, C51_not_ORAddress_native |
| C51 | `CountryName` and `AdministrationDomainName` (x509.py) have `class_` and `tag` instead of explicit tags: elements with the tag of the standard are refused with ValueError. | C51_not_CountryName, C51_not_AdministrationDomainName |
| C52 | `AnyAlgorithmId` overrides `_setup` and never makes `_reverse_map`: setting it, or `dump(force=True)` of a loaded one, raises `TypeError` | `C52_not_AnyAlgorithmId`, `C52_not_AnyAlgorithmId_force` |
| C52 | `SignedDigestAlgorithmId` has two OIDs named `sha1_rsa`: `dump(force=True)` turns 1.3.14.3.2.29 into 1.2.840.113549.1.1.5 | `C52_not_SignedDigestAlgorithmId` |
| C52 | `KeyEncryptionAlgorithmId('rsa').native` is `rsa`, after a round trip `rsaes_pkcs1v15` | `C52_not_KeyEncryptionAlgorithmId` |
| C52 | `pkcs12.Attribute` has a type for `microsoft_csp_name`, but 1.3.6.1.4.1.311.17.1 is named `microsoft_local_machine_keyset`, so the values of that attribute are never decoded as BMPString | `C52_not_Attribute` |
| C53 | a SET with an optional field that is not given cannot be dumped: `TypeError` from comparing tags with `None` | `C53_not_set_absent` |
| C53 | an instance given for an `Any` field with an explicit tag is written without the tag, and the result cannot be read | `C53_not_any_explicit`, `C53_not_any_explicit_back` |
| C53 | a CHOICE given for a ParsableOctetString field whose type is told by another field is written in place of the OCTET STRING | `C53_not_choice_payload` |
| C53 | SET fields are written in the order of tag numbers, ignoring the tag class (and explicit tags); DER puts universal tags first | `C53_not_set_order` |
| C54 | `PrivateKeyInfo.bit_size` of an EC key is the size of the private number, not of the curve: 248 for a P-256 key with a leading zero octet, 0 for the key 1 | `C54_ec_private_fails` |
| C54 | `PublicKeyInfo.bit_size` of a compressed EC point is half the size | `C54_compressed_fails` |
| C54 | `bit_size` raises `UnboundLocalError` for x25519, ed25519, DH and other keys | `C54_other_fails` |
| C54 | `bit_size` and `algorithm` do not follow changes of the key after they were read | `C54_stale_fails` |
| C55 | `PublicKeyInfo.wrap(key, 'rsassa_pss')` and `PrivateKeyInfo.wrap(key, 'rsassa_pss')` always raise TypeError: the parameters given are Null(), but the class for this algorithm is RSASSAPSSParams | `C55_public_refused`, `C55_pss_fails` |
| C56 | Comparing an e-mail address changes what dump() writes for it if it was not in DER. | C56_mail_rewrites |
| C56 | A loaded e-mail address with a character that is not ASCII before the @ can be read, but comparing it raises UnicodeEncodeError. | C56_mail_latin_fails |
| C56 | So does one with an empty label in the host. | C56_mail_label_fails |
| C56 | A DNSName with a character that IDNA replaces (ß) is not equal to itself after dump() and load(). | C56_dns_folded_fails |
| C57 | The `+` of a scheme is percent-encoded: `svn+ssh://host` becomes `svn%2Bssh://host`, which has no scheme | C57_plus_fails |
| C57 | A URI with an IPv6 address loses its brackets: `http://[::1]/a` becomes `http://::1/a`, and converting it back raises a ValueError | C57_brackets_fails |
| C57 | A password without a user name is dropped: `ftp://:secret@host/` becomes `ftp://host/` | C57_password_fails |
| C57 | A URI without host in a scheme like `ldap` loses its slashes when read and when written: `ldap:///CN=a` becomes `ldap:/CN=a` | C57_ldap_fails |
| C57 | A path without host gets two slashes for schemes like `http` and `file`: `http:/a` becomes `http:///a`, `file:a` becomes `file:///a` | C57_slashes_fails |
| C58 | Two BER encodings of the same primitive value, such as BOOLEAN 01 and ff, are not equal after loading. | C58_ber_fails |
| C58 | Values of different classes for one ASN.1 type (OctetString and IntegerOctetString) are equal although their native values differ. | C58_kinds_fails |
| C58 | A string received in segments (indefinite length) equals the string whose octets are the encodings of these segments: the raw contents are compared. | C58_segments_fails |
| C59 | `human_friendly` of a name with two attributes of a type whose values are not text (two unique identifiers) raises TypeError | C59_bytes_fails |
| C59 | `human_friendly` is computed once: it is not updated when the name changes | C59_cached |
| C60 | `authority_issuer_serial` raises AttributeError if the first general name in authorityCertIssuer is not a directory name, although one follows | C60_order_fails |
| C60 | `authority_issuer_serial` ends with the text ':None' if the extension has no serial number | C60_serial_fails |
| C61 | In a SEQUENCE whose long-form length ends in the octet `0x80`, changing one field re-encodes the others | `C61_length_128_fails` |
| C62 | A thread that uses a class with a `_map` while another thread is filling `_reverse_map` returns at once from `_setup` and marks the class as set up; setting a name that is in the map then raises `ValueError` | `C62_map_fails` |
| C62 | An alternative of a CHOICE that a thread has set up is lost for a moment when another thread replaces `_id_map` by an empty dict: loading a valid value raises `ValueError` | `C62_choice_fails` |
| C62 | Two threads that use a SEQUENCE class for the first time can append to the same `_field_ids` and `_precomputed_specs`; the class is then marked as set up with the types of the wrong fields for as long as the process runs | `C62_sequence_fails` |
| C63 | An attribute certificate of version 1 whose version is left out, as DER prescribes, cannot be loaded as part of a certificate set: `validate` reads the subject as if it were the version and raises `ValueError` | `C63_v1_fails` |
| C65 | `PrivateKeyInfo.wrap(data, 'ec')` with bytes whose SEQUENCE header ends with the octet 80 (an indefinite length, or contents of 128 octets) encodes the key anew and drops the leading zero octets of the private key; with the instance loaded from the same bytes they are kept | `C65_indefinite_fails` |
| C65 | An EC private key without parameters is refused by `PrivateKeyInfo.wrap` with a KeyError that does not say why | `C65_no_curve` |
| C65 | The width of the curve is imposed on the parsed key only after its octets were taken: a private key with fewer octets than the order of the curve is written as it was given | `C65_wrap_partial` |
| C66 | U+FE00 to U+FE0E (variation selectors) are kept, U+FE10 to U+FF00 (among them the Arabic presentation forms) are dropped: the range FF00-FE0F of the RFC, a misprint, was reversed | C66_variation_fails |
| C67 | A value taken from a field with a tag, such as `tbs_certificate['extensions']`, can be pickled, but unpickling it raises `ValueError`: the tags are not stored | C67_tagged_fails |
| C67 | An absent optional field (`VOID`) can be pickled, but not unpickled | C67_absent_fails |
| C68 | `cast` does not copy an implicit tag: when the header has to be written again (value built or in indefinite form, or a forced dump), the result is written with the universal tag of the class instead | C68_implicit_fails |
| C69 | A SEQUENCE OF whose elements are SEQUENCEs, SETs or CHOICEs without a comparison of their own contains no new instance, even if it has the encoding of an element | C69_constructed_fails |
| C69 | An element in another form allowed by BER is not found | C69_ber_fails |
| C70 | A fingerprint that was read once is not computed again after a change: `sha1` of a changed certificate is that of the old one | C70_stale_fails |
| C70 | `PublicKeyInfo.sha1` is documented as the digest of the encoded public key info, but only the octets of the key are hashed, not the algorithm | C70_key_fails |
| C71 | A new Concat without value has no length, and nothing can be assigned to it: `TypeError` | C71_empty_fails |
| C71 | A Concat built from fewer values than places is accepted, but `dump()` raises `AttributeError` | C71_short_fails |
| C71 | The class of a child that is assigned is not checked, so that `dump()` writes what cannot be loaded | C71_class_fails |
| C72 | If a name cannot be decoded, `valid_domains` raises the first time and is a shorter list from then on (likewise `valid_ips`) | C72_domains_fails |
| C72 | `ca` is documented as a boolean, but is `None` without basic constraints | C72_ca_fails |
| C72 | If the extensions of an entry cannot be parsed, `issuer_name` raises the first time and is `None` from then on, which means the issuer of the entry before | C72_issuer_fails |
| C73 | A class that redefines `_map` inherits the table of names of its base if that was used first: its own names are refused, those of the base are accepted and read as others. No class of the package redefines the map of a base | C73_order_fails |
| C74 | `spec()` of a field decided by `_oid_pair` raises `TypeError` on a value that was loaded and not read, because `children` is still `None` (core.py:3777 through 3502); reading any field first makes it work | C74_unread_fails, C74_extension_fails |
| C75 | An unknown name of a class in an explicit tag raises `KeyError`; the check that would raise the documented `ValueError` comes after the lookup (core.py:355-358) | C75_name_fails |
| C75 | A field with `class_` in its params writes the tag of that class but is recognized by the text, which no element has; with the old params the class is ignored | C75_class_key_fails, C75_old_class_key_fails |
| C75 | Params of a field with several explicit tags are accepted by constructors, but a class with such a field cannot be set up | C75_two_tags_fails |
| C76 | `Pfx.authenticated_safe` raises `KeyError` for every signed PKCS#12 file: it reads the field `content_info` of `SignedData`, which is called `encap_content_info` (pkcs12.py:118) | C76_signed_fails |
| C76 | `basic_ocsp_response` and `response_data` of a response without response bytes (all error responses) raise `TypeError`; the documentation says `None` | C76_absent_fails |
| C76 | `authenticated_safe` keeps its first answer after `auth_safe` is assigned | C76_stale_fails |
| C77 | an OID registered again with another name: the old name is still accepted if the class was used before, else refused | C77_renamed_fails |
| C77 | a name registered again for another OID: the old OID still reads as the name, and writing the name gives the other OID | C77_name_again_fails |
| C78 | `curve` of an EC key without parameters raises `AttributeError` | C78_absent_fails |
| C78 | `algorithm`, and with it `curve`, keeps its first answer after the field is assigned | C78_stale_fails |
| C79 | under Python 2 `int_to_bytes(-65535, signed=True)` gives `ff 01`, which is -255; the same for every negative number whose absolute value begins with the octet FF and is longer, unless the rest is zero | C79_negative_fails |
| C79 | under Python 2 `int_to_bytes(-255, signed=True, width=1)` gives `01` instead of an error | C79_width_fails |
| C79 | under Python 2 a negative number without `signed` raises `TypeError`, under Python 3 `OverflowError` | C79_unsigned_fails |
| C80 | `80 01 00` is loaded as the state good, although it has contents, and a forced dump of it writes `80 01` and no contents | C80_contents_fails |
| C82 | contents without a complete subidentifier (`06 00`, `06 01 86`) are accepted and read as the empty text; a forced dump raises `ValueError` | C82_empty_fails |
| C82 | padded and cut off contents are accepted: `06 03 2a 80 01` and `06 03 2a 01 86` both read as 1.2.1, and a forced dump writes `06 02 2a 01` | C82_lossy_fails |
| C83 | `RelativeOid` merges the first two arcs as in an OBJECT IDENTIFIER: no relative OID is read as its arcs (`0d 04 c2 7b 03 02`, {8571 3 2} in X.690, reads as 2.8491.3.2) | C83_reads_fails, C83_example_fails |
| C83 | `RelativeOid` never writes the octets of X.690: `RelativeOid('8571.3.2')` raises `ValueError`, a single arc gives empty contents, others are written as an OBJECT IDENTIFIER's | C83_writes_fails |
| C84 | `Real`, `ObjectDescriptor` and `InstanceOf` have no `native`; `dump()` takes a length octet 80 at the end of the header for an indefinite length, so a loaded value of 128, 384, … octets, and a second `dump()` of a new one, raises `AttributeError` | C84_kept_fails, C84_set |
| C84 | `.native` and `dump(force=True)` raise `AttributeError` for every value of these classes | C84_read_fails |
