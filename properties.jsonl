{"id": "C01", "title": "Low-level emit/parse round trip", "statement": "For every class 0-3, method 0-1, tag number >= 0 and contents byte string, parser.parse(parser.emit(class, method, tag, contents), strict=True) returns exactly that class, method, tag and contents, an empty trailer, and a header such that header + contents is the emitted byte string. Consequently two different (class, method, tag, contents) tuples are never emitted as the same bytes. Any out-of-range class, method or tag is rejected with ValueError and emits nothing.", "quantifier": "all integers for class/method/tag and all byte strings (shorter than 256^126 bytes) for the contents", "why_tests_cant": "tag numbers, lengths and their multi-byte encodings are unbounded; tests only touch a few tags and the 127/128 boundary", "anchors": ["asn1crypto/parser.py: emit, parse, _parse, _dump_header", "asn1crypto/util.py: int_to_bytes, int_from_bytes"]}
{"id": "C02", "title": "Parse reports faithful slices and never reads past the end", "statement": "Whenever parser.parse(data) succeeds, header + contents + trailer is a prefix of data and its length is exactly what parser.peek(data) returns, which is at least 2 and at most len(data). parse(data, strict=True) succeeds exactly when parse(data) succeeds and peek(data) == len(data), and then returns the same tuple.", "quantifier": "all byte strings", "why_tests_cant": "malformed and adversarial inputs are unbounded; a slicing error at one length form would only show on inputs nobody wrote down", "anchors": ["asn1crypto/parser.py: parse, peek, _parse"]}
{"id": "C03", "title": "Parsing depends only on the consumed bytes; truncation is always detected", "statement": "If parse(data) succeeds consuming n bytes, then parsing data[:n] followed by any other suffix gives the same result, and parsing any proper prefix of data[:n] raises ValueError. So a value can be cut out of a stream unambiguously and a truncated value is never accepted.", "quantifier": "all byte strings, all suffixes and all truncation points", "why_tests_cant": "tests truncate a handful of messages at a handful of offsets; nested indefinite-length values make the scanning non-local", "anchors": ["asn1crypto/parser.py: parse, peek, _parse"]}
{"id": "C04", "title": "Emitted headers are DER-minimal; non-minimal tags are refused", "statement": "The header emitted for a tag/length is the unique shortest BER identifier and definite length octets: no other header accepted by parse for the same class, method, tag and contents is shorter, and the tag and length octets have no leading zero groups. parse raises ValueError for a high-tag-number identifier with a leading zero group or whose value is below 31. If parse accepts a definite-length value whose length octets are minimal then emit of the parsed fields reproduces the consumed bytes.", "quantifier": "all tags, all lengths, all byte strings offered to parse", "why_tests_cant": "minimality is a claim about all alternative encodings of every value", "anchors": ["asn1crypto/parser.py: _dump_header, _parse"]}
{"id": "C05", "title": "Parsing is total; indefinite lengths are matched and depth limited", "statement": "For every byte string parse terminates and either returns a result or raises ValueError - never IndexError, RecursionError or non-termination. A successful parse of an indefinite-length value has a constructed method, a trailer of two zero bytes and contents that split into consecutive complete BER values, none of which starts with the two end-of-contents bytes; indefinite-length values nested more than ten deep are rejected.", "quantifier": "all byte strings, any nesting depth", "why_tests_cant": "denial-of-service inputs are chosen adversarially; termination is a statement about all inputs", "anchors": ["asn1crypto/parser.py: _parse, _MAX_DEPTH"]}
{"id": "C06", "title": "Integer/byte-string conversion is exact and minimal", "statement": "int_from_bytes(int_to_bytes(n, signed=True), signed=True) == n for every integer n, and int_from_bytes(int_to_bytes(n)) == n for every n >= 0; the result is the shortest byte string with that two's complement (resp. unsigned) value and is never empty. With a width the result has exactly that many bytes and the same value, and a value that does not fit raises OverflowError. Conversely int_to_bytes(int_from_bytes(b), width=len(b)) == b.", "quantifier": "all integers, all widths, all byte strings", "why_tests_cant": "integers are unbounded; sign/byte boundaries occur at every power of 256", "anchors": ["asn1crypto/util.py: int_to_bytes, int_from_bytes", "asn1crypto/_int.py: fill_width"]}
{"id": "C07", "title": "INTEGER and ENUMERATED values survive encode/decode and are DER", "statement": "Integer(n).native == n and Integer.load(Integer(n).dump()).native == n for every integer n; the contents are the shortest two's complement encoding. For a class with a name map, Integer(name).native is name, a mapped number reads back as its name, an unmapped name is refused with ValueError, and an unmapped number reads back as the number (Integer) or is refused (Enumerated).", "quantifier": "all integers, all name maps without duplicate names", "why_tests_cant": "unbounded integers and arbitrary subclasses' maps", "anchors": ["asn1crypto/core.py: Integer.set, Integer.native, Enumerated", "asn1crypto/util.py: int_to_bytes, int_from_bytes"]}
{"id": "C08", "title": "BOOLEAN decode/encode", "statement": "Boolean(b).dump() is 01 01 FF or 01 01 00 and loads back to b; any loaded contents other than a single zero byte read as True; dumping with force=True canonicalises any loaded BOOLEAN to one of the two DER forms without changing its value.", "quantifier": "all booleans and all loaded contents byte strings", "why_tests_cant": "BER allows 255 encodings of True plus malformed lengths", "anchors": ["asn1crypto/core.py: Boolean, Primitive.dump"]}
{"id": "C09", "title": "OBJECT IDENTIFIER round trip and canonical form", "statement": "For every valid OID (first arc 0-2, second arc below 40 unless the first is 2, any further arcs) ObjectIdentifier(dotted).dotted == dotted before and after dump/load, the contents bytes are the minimal base-128 encoding of X.690 section 8.19, and different OIDs have different encodings. Dotted strings that violate the arc constraints are refused with ValueError. After changing the value of an existing object the dotted form reported is the new one.", "quantifier": "all dotted OIDs with arcs of any size and any length, all histories of set/read operations on one object", "why_tests_cant": "arcs are unbounded and the first two are merged; cached attributes make the answer depend on call history", "anchors": ["asn1crypto/core.py: ObjectIdentifier.set, ObjectIdentifier.dotted, ObjectIdentifier.native, ObjectIdentifier.map, ObjectIdentifier.unmap"]}
{"id": "C10", "title": "OID names map one-to-one", "statement": "For an OID class with a name map in which names are unique, map() and unmap() are mutually inverse on the map's entries, native gives the mapped name and setting by name or by dotted string gives the same encoding; unknown names are refused with ValueError and unknown dotted OIDs pass through unchanged. Registering a new curve makes both directions answer consistently.", "quantifier": "all name maps, all strings", "why_tests_cant": "subclasses define arbitrary maps, and the reverse map is built lazily and then mutated by register()", "anchors": ["asn1crypto/core.py: ObjectIdentifier.map, ObjectIdentifier.unmap, ObjectIdentifier._setup", "asn1crypto/keys.py: NamedCurve.register"]}
{"id": "C11", "title": "BIT STRING values round trip", "statement": "For every tuple of bits, BitString(bits).native == bits before and after dump/load; the encoding has ceil(n/8)+1 content bytes, an unused-bits count equal to the padding, and zero padding bits. Reading a loaded value refuses an unused-bits count above 7, and an empty value with unused bits, with ValueError.", "quantifier": "all bit tuples, all contents byte strings", "why_tests_cant": "2^n values of each length; padding bugs appear only at particular lengths mod 8", "anchors": ["asn1crypto/core.py: BitString.set, BitString.native, _IntegerBitString._as_chunk, _IntegerBitString._chunks_to_int, _int_to_bit_tuple"]}
{"id": "C12", "title": "Named-bit BIT STRINGs behave as sets of names", "statement": "For a BitString subclass with a name map, setting from a set of names and reading native gives that set back, with trailing zero bits omitted as DER requires; value[name] is True exactly for members, and value[name] = True/False adds/removes exactly that name and affects no other name, through any sequence of such updates.", "quantifier": "all name maps, all sets of names, all sequences of updates", "why_tests_cant": "subsets and update histories are exponential in number", "anchors": ["asn1crypto/core.py: BitString.set, BitString.__getitem__, BitString.__setitem__, BitString.native"]}
{"id": "C13", "title": "Chunked (constructed) strings mean the concatenation of their chunks", "statement": "The native value of a constructed OCTET STRING / character string / BIT STRING equals the concatenation of its primitive leaf chunks in order, independent of how the value is split or nested and of definite or indefinite length; a single primitive chunk gives the same value as the primitive encoding. For bit strings every chunk but the last must have no unused bits or ValueError is raised.", "quantifier": "all chunk trees and all splittings of a value", "why_tests_cant": "there are unboundedly many BER encodings of one value", "anchors": ["asn1crypto/core.py: Constructable._merge_chunks, OctetString._as_chunk, _IntegerBitString._chunks_to_int, OctetBitString"]}
{"id": "C14", "title": "Integer-valued octet and bit strings keep value and width", "statement": "IntegerOctetString(n).native == n for all n >= 0, and after set_encoded_width(w) the contents are exactly w bytes with the same value whenever n fits (otherwise an error is raised); IntegerBitString round trips n >= 0; OctetBitString round trips every byte string. Negative values are refused.", "quantifier": "all naturals, all widths, all byte strings", "why_tests_cant": "unbounded integers; leading-zero bugs show up for 1 in 256 keys", "anchors": ["asn1crypto/core.py: IntegerOctetString, IntegerBitString, OctetBitString", "asn1crypto/keys.py: ECPrivateKey"]}
{"id": "C15", "title": "Loading then dumping reproduces the input bytes", "statement": "For every type specification and every byte string accepted by load(), dump() without mutation and without force returns exactly the bytes of the value that was loaded (header, contents, trailer, and all explicit wrapper headers/trailers), so signatures over re-dumped structures stay valid, even when the input is not DER and after any read-only access - except that values with indefinite length are re-encoded.", "quantifier": "all specifications, all accepted byte strings, all sequences of read-only accesses", "why_tests_cant": "inputs and specs are unbounded; lazy parsing makes the result depend on access history", "anchors": ["asn1crypto/core.py: Asn1Value.load, Asn1Value.dump, _parse_build, _build, Sequence.dump, SequenceOf.dump"]}
{"id": "C16", "title": "Explicit and implicit tagging", "statement": "A value constructed with any list of explicit tags and an optional implicit tag dumps to the corresponding nested headers (outermost first) around the identically encoded contents, and loading that encoding with the same tagging yields the same value; loading with a different class, tag or nesting raises ValueError. retag() then untag() gives back the untagged encoding.", "quantifier": "all tag numbers, tag classes, nesting depths and base values", "why_tests_cant": "tag lists are unbounded and the order of wrapping is easy to reverse", "anchors": ["asn1crypto/core.py: Asn1Value.__init__, Asn1Value.dump, Asn1Value.retag, Asn1Value.untag, _build, _tag_type_to_explicit_implicit"]}
{"id": "C17", "title": "SEQUENCE with OPTIONAL and DEFAULT fields round trips", "statement": "For every SEQUENCE specification in which consecutive optional fields are distinguishable by tag, building a value from an assignment of fields, dumping and loading gives the same assignment: present fields keep their values, absent optional fields read as absent and absent default fields read as their default; a missing required field or an unexpected element raises ValueError.", "quantifier": "all field lists (any length), all presence patterns, all field encodings", "why_tests_cant": "presence patterns are exponential in the number of fields", "anchors": ["asn1crypto/core.py: Sequence._parse_children, Sequence._set_contents, Sequence._make_value"]}
{"id": "C18", "title": "DEFAULT values are omitted on encoding", "statement": "When a SEQUENCE is (re-)encoded, a field whose value encodes to the same bytes as its DEFAULT is omitted and any other value is included; optional absent fields contribute nothing; field order is the declared order regardless of the order of assignment.", "quantifier": "all field lists, all values, all assignment orders", "why_tests_cant": "DER uniqueness is a statement about every value and assignment history", "anchors": ["asn1crypto/core.py: Sequence._set_contents, Sequence.__setitem__"]}
{"id": "C19", "title": "SEQUENCE OF behaves as a list", "statement": "Any sequence of append, insert-free item assignment, deletion, indexing, len and iteration on a SequenceOf (fresh or loaded, lazily or eagerly parsed) behaves like the same operations on a Python list of the child values, and dump() afterwards is the encoding of exactly that list; load(dump()) gives the list back.", "quantifier": "all operation histories, all list lengths", "why_tests_cant": "lazy parsing and cached contents make correctness history dependent", "anchors": ["asn1crypto/core.py: SequenceOf.__getitem__, SequenceOf.__setitem__, SequenceOf.__delitem__, SequenceOf.append, SequenceOf._set_contents, SequenceOf.dump, SequenceOf._is_mutated"]}
{"id": "C20", "title": "SET OF encodings are canonical", "statement": "Encoding a SetOf sorts the child encodings, so the result is independent of insertion order (two SetOf values with the same multiset of children encode identically), no child is lost or duplicated, and loading the result gives the same multiset.", "quantifier": "all lists of children and all permutations", "why_tests_cant": "n! orders", "anchors": ["asn1crypto/core.py: SetOf._set_contents"]}
{"id": "C21", "title": "SET fields may arrive in any order", "statement": "For a SET whose fields have pairwise distinct tags, loading any permutation of the field encodings gives the same field assignment; unknown elements and missing required fields raise ValueError, and duplicates are not silently accepted.", "quantifier": "all field lists, all permutations of the encoded fields", "why_tests_cant": "n! orders and all presence patterns", "anchors": ["asn1crypto/core.py: Set._parse_children, Set._set_contents"]}
{"id": "C22", "title": "CHOICE selects exactly by tag", "statement": "For a CHOICE whose alternatives have distinct tags, loading an encoding selects the unique alternative whose outer tag (after explicit/implicit tagging) matches and raises ValueError when none does; constructing by name, dumping and loading selects the same alternative with the same value; dump() of a loaded choice is the input.", "quantifier": "all alternative lists, all encodings", "why_tests_cant": "alternatives combine with nested choices and tagging in unbounded ways", "anchors": ["asn1crypto/core.py: Choice.__init__, Choice.validate, Choice.parse, Choice.dump, _build"]}
{"id": "C23", "title": "Parsed payload inside OCTET/BIT STRING stays consistent", "statement": "For a ParsableOctetString / ParsableOctetBitString holding a value, .parsed parses the current bytes, encoding the container embeds exactly the encoding of the payload, and after assigning new bytes or a new payload the next .parsed, .native and dump() all reflect the new value.", "quantifier": "all payloads and all histories of set / parsed / dump operations", "why_tests_cant": "two caches of the same data; staleness depends on history", "anchors": ["asn1crypto/core.py: ParsableOctetString.set, ParsableOctetString.parsed, ParsableOctetString.parse, ParsableOctetString.dump"]}
{"id": "C24", "title": "Forced re-encoding is value preserving and idempotent", "statement": "dump(force=True) of a loaded value decodes to the same native value, is definite-length DER, and forcing a second time returns the same bytes.", "quantifier": "all types and all accepted BER encodings", "why_tests_cant": "all BER encodings of all values", "anchors": ["asn1crypto/core.py: Primitive.dump, Asn1Value.dump, Sequence.dump, SequenceOf.dump, Constructable"]}
{"id": "C25", "title": "PEM armor round trip", "statement": "pem.unarmor(pem.armor(name, data, headers)) returns (name, headers, data) for every byte string, every non-empty object type made of capital letters, digits and spaces, and every dict of ASCII headers whose names contain no colon, whose names and values contain no line breaks, and whose values have no surrounding whitespace; every body line is at most 64 characters and pem.detect() is True on the result. Small letters of an object type are written as capitals. In a text with several header lines of one name, the header is read where the first of them is, with the value of the last.", "quantifier": "all byte strings and header lists", "why_tests_cant": "lengths around multiples of 48 bytes and arbitrary data; the unarmor state machine is line driven", "anchors": ["asn1crypto/pem.py: armor, unarmor, _unarmor, detect"]}
{"id": "C26", "title": "PEM decoding isolates blocks", "statement": "With multiple=True unarmor yields the blocks of a file in order, one per armored object, ignoring any text before, between and after the blocks; an input without a complete block raises ValueError; CRLF and LF line endings give the same result.", "quantifier": "all lists of blocks and all surrounding texts free of BEGIN lines", "why_tests_cant": "interleavings of noise and blocks are unbounded", "anchors": ["asn1crypto/pem.py: unarmor, _unarmor"]}
{"id": "C27", "title": "UTCTime encodes 1950-2049 exactly", "statement": "UTCTime(d).native is the same instant as d for every timezone-aware datetime with year 1950-2049 (whole seconds); years outside are refused; two-digit years decode into 1950-2049; any accepted offset form denotes the instant local time minus offset.", "quantifier": "all instants in the range, all offsets, all byte strings offered as time", "why_tests_cant": "3 billion instants times offsets; century pivot", "anchors": ["asn1crypto/core.py: UTCTime.set, UTCTime._date_by_len, AbstractTime._parsed_time"]}
{"id": "C28", "title": "GeneralizedTime round trips including year 0 and fractions", "statement": "GeneralizedTime(d).native == d for every aware datetime with microsecond precision, trailing zeros of the fraction are stripped and the instant is unchanged by normalising to UTC; fractional hours/minutes/seconds decode to the right instant.", "quantifier": "all datetimes 0000-9999 with microseconds", "why_tests_cant": "10^17 instants", "anchors": ["asn1crypto/core.py: GeneralizedTime.set, GeneralizedTime._date_by_len, AbstractTime._parsed_time", "asn1crypto/util.py: extended_datetime"]}
{"id": "C29", "title": "Year-zero dates behave like the proleptic Gregorian calendar", "statement": "extended_date / extended_datetime objects for year 0 order before every year >= 1, subtraction and addition of timedeltas agree with a day count of the proleptic Gregorian calendar in which year 0 is a leap year, (a + t) - a == t, and isoformat/strftime print year 0000. replace gives exactly the date or time with the fields asked for, in the year 0 unless another year is asked for, and raises when there is none; timestamp is the distance from the beginning of 1970.", "quantifier": "all year-0 dates, all datetimes, all timedeltas whose result stays within 0000-9999", "why_tests_cant": "date arithmetic across the year 0/1 boundary for every offset", "anchors": ["asn1crypto/util.py: extended_date, extended_datetime"]}
{"id": "C30", "title": "IP address text/binary conversion", "statement": "inet_pton(inet_ntop(bytes)) == bytes for every IPv4 and IPv6 address, inet_ntop compresses the first longest run of at least two zero groups, and inet_pton refuses malformed text with ValueError.", "quantifier": "all 2^32 and 2^128 addresses, all strings", "why_tests_cant": "address spaces cannot be enumerated", "anchors": ["asn1crypto/_inet.py: inet_ntop, inet_pton"]}
{"id": "C31", "title": "x509 IPAddress values with CIDR masks", "statement": "IPAddress(text).native == text for every canonical address with an optional /n suffix, the encoding has the mask with n leading ones, and load(dump) preserves the value.", "quantifier": "all addresses and all prefix lengths", "why_tests_cant": "address space times prefix lengths", "anchors": ["asn1crypto/x509.py: IPAddress.set, IPAddress.native"]}
{"id": "C32", "title": "Host name matching is exact except for one left-most wildcard label", "statement": "Certificate.is_valid_domain_ip(host) is True only if some DNS name in the certificate equals the host label by label ignoring case, or is a wildcard with exactly one '*' in its left-most label, no xn-- prefix, the same number of labels, equal remaining labels, and a left-most label that the wildcard matches; a '*' label never spans a dot. The DNS names are those of the alternative names or, without any alternative name, the common names that look like a host name. IP addresses, which are hosts with a colon or four numbers separated by dots, match only by equality. A host of ASCII characters with an empty label before the last or a label of more than 63 characters raises UnicodeError.", "quantifier": "all host names and all lists of certificate names", "why_tests_cant": "security decision over unbounded strings; regex construction from certificate-controlled text", "anchors": ["asn1crypto/x509.py: Certificate.is_valid_domain_ip, Certificate._is_wildcard_domain, Certificate._is_wildcard_match"]}
{"id": "C33", "title": "self_signed / self_issued decision", "statement": "self_issued is True exactly when subject and issuer names are equal; self_signed is 'maybe' when the certificate is self-issued and the key identifiers match or one of them is missing or empty, and 'no' otherwise; the answer does not depend on how often or in which order properties were read.", "quantifier": "all combinations of subject/issuer/key identifiers, all access orders", "why_tests_cant": "decision table over optional extensions with caching", "anchors": ["asn1crypto/x509.py: Certificate.self_issued, Certificate.self_signed"]}
{"id": "C34", "title": "Certificate extension summary is exact", "statement": "critical_extensions is exactly the set of names of extensions flagged critical, and each named extension accessor returns the parsed value of the last extension with that name or None when there is none, independent of access order; the same holds for CRLs, CRL entries and OCSP structures.", "quantifier": "all extension lists", "why_tests_cant": "extension lists are attacker controlled, with duplicates and unknown OIDs", "anchors": ["asn1crypto/x509.py: Certificate._set_extensions", "asn1crypto/crl.py: CertificateList._set_extensions, RevokedCertificate._set_extensions", "asn1crypto/ocsp.py: _set_extensions"]}
{"id": "C35", "title": "Distinguished-name comparison is an equivalence that agrees with hashable", "statement": "Name equality is reflexive, symmetric and transitive, holds exactly when the hashable strings are equal, and ignores attribute order within an RDN, letter case and insignificant white space; multi-valued RDNs are compared by all their attribute values.", "quantifier": "all names", "why_tests_cant": "names are unbounded lists of sets of attributes; RFC 5280 7.1 comparison is a decision used for chain building", "anchors": ["asn1crypto/x509.py: Name.__eq__, Name.hashable, RDNSequence.__eq__, RelativeDistinguishedName.__eq__, RelativeDistinguishedName.hashable, NameTypeAndValue.__eq__, NameTypeAndValue.prepped_value"]}
{"id": "C36", "title": "Name.build produces the preferred attribute order", "statement": "Name.build(dict) contains exactly the given attributes, sorted by the preferred ordinal (ties keep insertion order), so building from any permutation of attributes with distinct ordinals gives the same encoding; an attribute may be given by name or by dotted identifier; native of the result is the given mapping. A text is written in the string type of its attribute: country_name, serial_number and dn_qualifier are PrintableString, email_address, domain_component, telephone_number, unique_identifier and the TPM attributes have their own types, all others are UTF8String, or PrintableString if use_printable is set.", "quantifier": "all attribute dictionaries and their orders", "why_tests_cant": "n! orders", "anchors": ["asn1crypto/x509.py: Name.build, NameType.preferred_ordinal, Name.native"]}
{"id": "C37", "title": "DSA signature conversion between ASN.1 and P1363", "statement": "DSASignature.from_p1363(sig.to_p1363(width)) has the same r and s for all r, s >= 0 and any sufficient width (at least one byte); the output is exactly 2*width bytes; an insufficient width raises ValueError; from_p1363(data).to_p1363(width=len(data)/2) == data for every non-empty data of even length; negative numbers raise OverflowError.", "quantifier": "all r, s and widths, all even-length byte strings", "why_tests_cant": "leading zero bytes occur for 1/128 of signatures", "anchors": ["asn1crypto/algos.py: DSASignature.from_p1363, DSASignature.to_p1363"]}
{"id": "C38", "title": "EC point coordinate conversion", "statement": "ECPoint.from_coords(x, y).to_coords() == (x, y) for all positive coordinates, the encoding being 04 followed by two equally wide big-endian integers; points not starting with 04 are refused with ValueError.", "quantifier": "all pairs of coordinates, all byte strings", "why_tests_cant": "width computed from a logarithm; fails only at particular magnitudes", "anchors": ["asn1crypto/keys.py: _ECPoint.from_coords, _ECPoint.to_coords"]}
{"id": "C39", "title": "Signature algorithm classification is total and consistent", "statement": "Every signature algorithm name known to the library has a signature_algo, hash_algo agrees with the hash named in the identifier, hash_algo and cms_hash_algo agree wherever hash_algo answers, the OID/name tables are mutually consistent, and unknown OIDs raise ValueError from all three.", "quantifier": "all entries of the tables and all other OID strings", "why_tests_cant": "tables are edited by hand in four places; consistency is a whole-table property", "anchors": ["asn1crypto/algos.py: SignedDigestAlgorithmId, SignedDigestAlgorithm.signature_algo, SignedDigestAlgorithm.hash_algo, SignedDigestAlgorithm.cms_hash_algo"]}
{"id": "C40", "title": "Encryption algorithm parameters are derived consistently", "statement": "For every encryption algorithm name, key_length, encryption_mode, encryption_cipher, encryption_block_size, kdf and kdf_hmac either give the value implied by the algorithm's name/parameters or raise ValueError; PBES2 delegates to its encryption scheme, nested to any depth, unless the key derivation parameters give the key length; salt, iteration count and initialisation vector are those of the parameters, a salt from another source is refused; unknown OIDs raise ValueError everywhere; the block size of a stream cipher is 0.", "quantifier": "all algorithm names and parameter values, nested PBES2 schemes", "why_tests_cant": "table/branch consistency over the full identifier set including unknown OIDs", "anchors": ["asn1crypto/algos.py: EncryptionAlgorithm"]}
{"id": "C41", "title": "Teletex codec round trip", "statement": "Decoding any T.61 byte string that decodes and re-encoding it gives the same bytes, encoding any string that encodes and decoding gives the same string; bytes and characters outside the table are refused.", "quantifier": "all byte strings and all unicode strings", "why_tests_cant": "256-entry table with holes and duplicates", "anchors": ["asn1crypto/_teletex_codec.py: DECODING_TABLE, ENCODING_TABLE"]}
{"id": "C42", "title": "NULL parameters are forced where required", "statement": "Setting the algorithm of an algorithm identifier (by field name) to one of the identifiers that require NULL parameters leaves parameters NULL if it was absent and never overwrites parameters already present; other algorithms leave parameters untouched, through any sequence of assignments; the constructor does the same.", "quantifier": "all algorithms and assignment histories", "why_tests_cant": "depends on assignment order", "anchors": ["asn1crypto/algos.py: _ForceNullParameters"]}
{"id": "C43", "title": "IRI/URI conversion round trip", "statement": "For the percent-encoding layer used for URI general names, decoding what was encoded gives the original text for all unicode strings, reserved characters are preserved or escaped as the component requires and the encoded form is pure ASCII.", "quantifier": "all unicode strings", "why_tests_cant": "unbounded strings with interactions between escapes, UTF-8 and reserved characters", "anchors": ["asn1crypto/_iri.py: _urlquote, _urlunquote, iri_to_uri, uri_to_iri"]}
{"id": "C44", "title": "Changes made through a container are visible in its encoding", "statement": "After any assignment, deletion or append on a Sequence/SequenceOf - including on nested Sequence/SequenceOf values reached by indexing - dump() of the outermost container encodes the current values; copy() gives an independent value whose later changes never affect the original.", "quantifier": "all nesting depths and all histories of mutations and dumps", "why_tests_cant": "cached encodings have to be invalidated along arbitrary paths", "anchors": ["asn1crypto/core.py: Sequence._is_mutated, SequenceOf._is_mutated, Sequence.contents, Sequence.dump, Asn1Value.copy, Sequence._copy"]}
{"id": "C45", "title": "Concatenated values split at the right boundaries", "statement": "A Concat of given specs loads the concatenation of the encodings of its children into exactly those children and dumps the same bytes; surplus or missing bytes are handled as documented (missing values become absent, surplus raise ValueError under strict loading).", "quantifier": "all child lists and encodings", "why_tests_cant": "boundaries are data dependent", "anchors": ["asn1crypto/core.py: Concat"]}
{"id": "C46", "title": "HTTP URL selection from certificates and CRLs", "statement": "ocsp_urls is the list of the URLs with access method ocsp and an http, https, ldap or ldaps scheme, issuer_cert_urls of a CRL the list of the URLs with access method ca_issuers and an http scheme, in order, regardless of letter case of the scheme; the CRL distribution points are exactly the points whose full name has an HTTP URL, each once, in order; the answers do not depend on what was read before.", "quantifier": "all extension contents", "why_tests_cant": "attacker-controlled lists", "anchors": ["asn1crypto/x509.py: Certificate.ocsp_urls, Certificate._get_http_crl_distribution_points", "asn1crypto/crl.py: CertificateList.issuer_cert_urls"]}
{"id": "C47", "title": "Ordered dictionary behaves as an insertion-ordered map", "statement": "Any history of set, delete, pop, popitem and clear on the bundled OrderedDict leaves iteration order equal to first-insertion order of the live keys with the latest values; reverse iteration is the exact reverse.", "quantifier": "all operation histories", "why_tests_cant": "doubly linked list manipulation", "anchors": ["asn1crypto/_ordereddict.py: OrderedDict"]}
{"id": "C48", "title": "UTC offset formatting and timezone identity", "statement": "create_timezone returns one object per offset for every offset strictly between -24h and 24h, however many calls are made in between, different objects for different offsets, and refuses other offsets with ValueError; the printed offset is a sign, two-digit hours and two-digit minutes of the offset rounded down to whole minutes, so an offset of whole minutes reads back to itself.", "quantifier": "all offsets", "why_tests_cant": "172799 offsets, negative rounding", "anchors": ["asn1crypto/util.py: create_timezone, _format_offset"]}
{"id": "C49", "title": "EC private keys are written in the width of their curve", "statement": "However the fields of an ECPrivateKey are assigned - number before curve, curve before number, repeatedly, after registering further curves, on a new or a loaded key - once curve parameters (or set_key_size) have asked for a width, private_key is written with exactly that many octets and holds the number assigned last; a number that does not fit is refused with OverflowError. Every curve the library names has a width, register() makes the width of a new curve known at once, and parameters of unknown width raise ValueError.", "quantifier": "all histories of assignments to a new or loaded key, deletions, set_key_size calls, curve registrations and dumps; all numbers and widths", "why_tests_cant": "the order of assignments and of registrations is unbounded, and leading zero octets only show for one key in 256", "anchors": ["asn1crypto/keys.py: ECPrivateKey, ECDomainParameters.key_size, NamedCurve.register, NamedCurve._key_sizes", "asn1crypto/core.py: IntegerOctetString.set_encoded_width"]}
{"id": "C50", "title": "Encodings of all kinds of types load and read as their values", "statement": "For definitions in which optional fields and alternatives can be told apart by tag, loading a BER encoding of a value succeeds, and the loaded object reads as exactly that value: as a whole and part by part, any number of times, in any order. This includes SEQUENCE with OPTIONAL and DEFAULT fields, fields whose type is chosen by an object identifier or a callback, values inside OCTET STRING and BIT STRING, SET with its fields in any order, SEQUENCE OF, SET OF, CHOICE, ANY and tagged versions of all of them. The same bytes are never an encoding of two values of a type.", "quantifier": "all type definitions (any number, nesting and recursion), all values, all BER encodings of them, all numbers and orders of reads", "why_tests_cant": "types, values, encodings and orders of access combine without bound; a type chosen by another field depends on values read earlier", "anchors": ["asn1crypto/core.py: Asn1Value.load, _build, _parse_build", "asn1crypto/core.py: Sequence._parse_children, Sequence._determine_spec, Sequence._make_value, Sequence._lazy_child, Sequence.native", "asn1crypto/core.py: Set._parse_children, SequenceOf._parse_children, Choice.load, Choice.parse, Any.parse, ParsableOctetString.parse"]}
{"id": "C51", "title": "The structures the package defines are unambiguous and decode", "statement": "Every structure defined by the package (certificates, CRLs, OCSP, CSRs, CMS, TSP, PKCS#12, keys, algorithms, PDF attributes) is a sound definition: when fields of a SEQUENCE may be absent, the tag of the next element always tells which field it is; the alternatives of every CHOICE and the fields of every SET begin with different tags; every DEFAULT can be constructed and read; every type that is chosen by an OID fits the field it is chosen for. Hence every BER encoding of a value of any of these structures loads with the class, and .native and item access give that value, the only one the bytes are an encoding of.", "quantifier": "all classes the package defines, all values of them of any size and nesting, all BER encodings of the values, all bytes behind them", "why_tests_cant": "There are over 400 classes with hundreds of optional fields, alternatives and OID-dependent types; an ambiguity shows only for particular combinations of absent fields, and no set of fixtures has encodings of all structures with all combinations.", "anchors": ["asn1crypto/core.py: Sequence._parse_children, Sequence._determine_spec, Sequence._make_value, Choice.validate, _build", "asn1crypto/x509.py", "asn1crypto/cms.py", "asn1crypto/algos.py", "asn1crypto/keys.py", "asn1crypto/crl.py", "asn1crypto/ocsp.py", "asn1crypto/csr.py", "asn1crypto/tsp.py", "asn1crypto/pkcs12.py", "asn1crypto/pdf.py"]}
{"id": "C52", "title": "The names that the package defines for values are one-to-one and survive encoding", "statement": "For every class of the package with a table of names (OBJECT IDENTIFIER, INTEGER, ENUMERATED and named-bit BIT STRING classes): every listed name can be set, is encoded as the value it is listed for, and that encoding reads as the name; no name stands for two values and no value has two names, so reading a value and setting it again keeps its encoding; unlisted OIDs are read and set in dotted form. Every name in a table that selects the type of a field by an OID or version is a value the deciding field can have, so no entry of such a table is dead.", "quantifier": "all classes of the package, all names in their tables, all OIDs, all sets of named bits, all entries of the type-selection tables", "why_tests_cant": "There are about a hundred tables with over a thousand entries maintained by hand; a duplicate name, a missing reverse entry or a misspelt key has an effect only for that entry, and tests exercise a few dozen of them.", "anchors": ["asn1crypto/core.py: ValueMap._setup, ObjectIdentifier.set, ObjectIdentifier.native, Integer.set, Enumerated.set, BitString.set, Sequence._determine_spec", "asn1crypto/algos.py: SignedDigestAlgorithmId, AnyAlgorithmId", "asn1crypto/cms.py: KeyEncryptionAlgorithmId", "asn1crypto/pkcs12.py: AttributeType, Attribute"]}
{"id": "C53", "title": "A value built from Python objects is written as its DER encoding and reads back as that value", "statement": "For every type that can be defined - primitive types, SEQUENCE, SET, SEQUENCE OF, SET OF, CHOICE, ANY, strings that hold an encoding, with implicit and explicit tags, optional fields, default values and fields whose type is told by another field - an instance made from a Python value (a dict with the fields in any order and optional or default ones left out or None, a list, a pair of name and value, an instance where one is allowed) dumps as the DER encoding of the value: shortest headers, fields in declared order, default values omitted, SET in tag order, SET OF sorted, the right type for every field that another one tells about. Loading these bytes gives an instance whose native value is that value, and different values never have the same encoding. This holds for all classes the package itself defines.", "quantifier": "all sound type definitions and all classes of the package, all Python values that stand for a value of the type, all nesting depths, all bytes behind the encoding", "why_tests_cant": "Type definitions and values nest without bound, and the interplay of tags, defaults, optional fields and type-selecting fields is different for every definition; tests build a handful of structures with a handful of values.", "anchors": ["asn1crypto/core.py: Sequence.__init__, Sequence.__setitem__, Sequence._make_value, Sequence._set_contents, Set._set_contents, SequenceOf.__init__, SequenceOf._make_value, SetOf._set_contents, Choice.__init__, Any.__init__, ParsableOctetString.set, ParsableOctetBitString.set, _fix_tagging, Asn1Value.retag, Asn1Value.dump, Asn1Value.load", "asn1crypto/x509.py", "asn1crypto/cms.py", "asn1crypto/keys.py", "asn1crypto/algos.py"]}
{"id": "C54", "title": "Key attributes tell the algorithm and the size of the key", "statement": "For every private and public key structure, algorithm names the algorithm of the key; bit_size and byte_size are the size in whole octets of the RSA modulus, of the DSA prime p, or of a coordinate of the EC curve; hash_algo of a DSA key is sha1 when q has at most 160 bits and sha2 otherwise (None when a public key has no parameters) and is refused for other keys; q_byte_size is the number of octets of q. The answers do not depend on which attributes were read before, and follow changes of the key.", "quantifier": "all keys (all moduli, primes, private numbers and points), all orders of reading attributes", "why_tests_cant": "sizes at the edges of octets, keys with leading zero octets, and orders of reading cannot be enumerated", "anchors": ["asn1crypto/keys.py: PrivateKeyInfo.algorithm, PrivateKeyInfo.bit_size, PrivateKeyInfo.byte_size, PrivateKeyInfo.hash_algo, PublicKeyInfo.bit_size, PublicKeyInfo.byte_size, PublicKeyInfo.hash_algo, DSAParams.q_byte_size"]}
{"id": "C55", "title": "Wrapping an RSA key gives the DER SubjectPublicKeyInfo or PrivateKeyInfo around exactly that key", "statement": "For every RSA public key, PublicKeyInfo.wrap(key, 'rsa') succeeds and dumps as the DER encoding SEQUENCE { SEQUENCE { OID 1.2.840.113549.1.1.1, NULL }, BIT STRING holding the encoding of the key }; for every RSA private key, PrivateKeyInfo.wrap(key, 'rsa') succeeds and dumps as SEQUENCE { INTEGER 0, SEQUENCE { OID, NULL }, OCTET STRING holding the encoding of the key }. It does not matter whether the key is given as encoding or as the instance loaded from it. Loading what was dumped gives the algorithm, the value of the key and (for private keys) version 0 and no attributes. Any other algorithm name given to PublicKeyInfo.wrap is refused with ValueError, and 'rsassa_pss', which both accept as an RSA algorithm, gives the container with that algorithm.", "quantifier": "all RSAPublicKey and RSAPrivateKey encodings (any sizes of the integers, any number of extra primes, BER forms) and all algorithm names", "why_tests_cant": "Key sizes and the forms of their encodings are unbounded; tests wrap a handful of fixture keys.", "anchors": ["asn1crypto/keys.py: PublicKeyInfo.wrap, PrivateKeyInfo.wrap, PrivateKeyInfo.__setitem__", "asn1crypto/algos.py: _ForceNullParameters", "asn1crypto/core.py: ParsableOctetString, ParsableOctetBitString, Sequence.__setitem__, Sequence._make_value"]}
{"id": "C56", "title": "E-mail addresses, DNS names and general names are written, read and compared as names", "statement": "An EmailAddress or DNSName built from text has that text after dump() and load(). Two e-mail addresses are equal exactly if they are the same before the last @ and the same but for upper and lower case after it; two DNS names are equal exactly if they are the same but for upper and lower case; two IP addresses if they have the same octets. GeneralName values of different kinds are never equal; of the same kind they are equal exactly if the names are; other_name, x400_address and edi_party_name raise ValueError. Comparison is symmetric and transitive, gives the same answer when repeated, does not change the texts, and does not fail for names that can be read.", "quantifier": "all texts and all pairs and triples of names, built or loaded from any bytes", "why_tests_cant": "The texts, encodings and pairs of names are unbounded; a symmetric and transitive relation cannot be tested on samples, and comparison rewrites the instances as it goes.", "anchors": ["asn1crypto/x509.py: DNSName", "asn1crypto/x509.py: EmailAddress", "asn1crypto/x509.py: URI.__eq__", "asn1crypto/x509.py: IPAddress.__eq__", "asn1crypto/x509.py: GeneralName.__eq__"]}
{"id": "C57", "title": "Whole IRIs become URIs with the same parts and come back", "statement": "Converting an IRI to a URI keeps every part in its place: the scheme and port stay, the host becomes its ASCII form, and user name, password, path, query and fragment denote the same bytes with the same delimiters. The result is always ASCII. Normalisation leaves out only the standard port of http and https and a path '/' that nothing follows. Converting back gives the IRI. Two URI names are equal exactly when they are the same after normalisation, up to the case of the host.", "quantifier": "all IRIs with or without a host, all scheme, user, port, path, query and fragment texts, and any IDNA codec", "why_tests_cant": "the delimiters, escapes and non-ASCII characters of seven parts interact in unboundedly many texts", "anchors": ["asn1crypto/_iri.py: iri_to_uri, uri_to_iri", "asn1crypto/x509.py: URI"]}
{"id": "C58", "title": "Equality of primitive values is equality of type and contents", "statement": "Two primitive values compare equal exactly when they are of the same ASN.1 type (the tag of their classes, whatever implicit or explicit tags the instances carry) and have the same contents octets; the comparison is reflexive, symmetric and transitive, never raises, and instances built from Python values are equal exactly when they stand for the same value.", "quantifier": "all pairs and triples of instances of primitive classes (any tagging, loaded or built or without value), all values a class accepts", "why_tests_cant": "The comparison has five branches that depend on classes, base classes and tagging of both operands; that it is an equivalence relation and agrees with the values concerns all pairs and triples of instances.", "anchors": [{"file": "asn1crypto/core.py", "symbol": "Primitive.__eq__"}, {"file": "asn1crypto/core.py", "symbol": "Primitive.__ne__"}]}
{"id": "C59", "title": "The text of a name shows all its attributes", "statement": "Name.human_friendly is, for every name whose attribute values are texts, the parts 'Label: values' of all attribute types that occur, each type once: with the labels of the library (the type itself if it has none), with all the values of the type, the last one first, separated by commas. The parts stand in the order of the name if the name ends with the country, in reverse order otherwise, separated by commas, or by semicolons if a part has a comma in it. So every attribute of the name can be seen in the text with its label, different types have different labels, and reading the text again gives the same text. A name with two values of a type whose values are not text has no such text: TypeError.", "quantifier": "every name: all lists of RDNs, attribute types known and unknown, repeated types in any places, all text values", "why_tests_cant": "The tests have a few certificates; how repeated types nest and how the order depends on the last attribute needs arbitrary lists of attributes.", "anchors": ["asn1crypto/x509.py: Name.human_friendly, Name._recursive_humanize, NameType.human_friendly"]}
{"id": "C60", "title": "Certificates are identified by issuer and serial number", "statement": "Certificate.issuer_serial is the SHA-256 hash of the encoding of the issuer, a colon and the serial number in decimal, and Certificate.authority_issuer_serial is made in the same way of the issuer and serial number of the authority key identifier extension (None if the certificate has no such extension or it names no issuer), whatever was read of the certificate before and however often. So two certificates have the same issuer_serial exactly if the hashes of their issuers and their serial numbers are equal, and authority_issuer_serial of a certificate is the issuer_serial of another exactly if the extension names that issuer (by hash) and that serial number. The explicit tag around the name in the extension plays no role.", "quantifier": "all certificates, all serial numbers (negative ones too), all histories of reads, any hash function", "why_tests_cant": "Unambiguity of the concatenation is a statement about all hashes and numbers, and the caches must be right after every sequence of reads.", "anchors": ["asn1crypto/x509.py: Certificate.issuer_serial, Certificate.authority_issuer_serial, Name.sha256", "asn1crypto/core.py: Asn1Value.untag"]}
{"id": "C61", "title": "Changing part of a loaded structure leaves the rest octet for octet", "statement": "After load(), any sequence of assignments, deletions and appends on the SEQUENCEs, SEQUENCE OFs and SET OFs inside, reached by indexing at any depth, dump() succeeds and writes a structure in which every part that was not changed has exactly the octets it was loaded with (BER or DER), every assigned part is the DER encoding of the assigned value, deleted and default-valued fields are left out, and the containers on the path to a change have new headers of minimal length; load() of the result gives the changed value.", "quantifier": "all sound type definitions, including every class of the package, all BER encodings loaded, all finite sequences of changes at any depth", "why_tests_cant": "the interaction of cached encodings, lazily built parts, default values and tag overrides depends on the whole history of changes and on the encoding that was loaded", "anchors": ["asn1crypto/core.py: Sequence.__getitem__, Sequence.__setitem__, Sequence.__delitem__, Sequence._set_contents, Sequence.dump, SequenceOf.__setitem__, SequenceOf.__delitem__, SequenceOf.append, SequenceOf._set_contents, SetOf._set_contents, Asn1Value.dump"]}
{"id": "C62", "title": "A class may be used for the first time in several threads", "statement": "The first instance of a class makes its lookup tables (alternatives of a CHOICE by tag and name, fields of a SEQUENCE or SET by name and tag, names of a value map). If any number of threads use a class for the first time, then whatever the order of their steps the tables end up as the declaration says, no thread sees anything else on the way, and no thread is held up for ever. (The code violates part of this: see the findings. What holds: once all threads are done every table that is a dict is right; no schedule gets stuck; and if one thread completes the first use before others begin, all tables are right, never change again, and every lookup of every thread gives what was declared.)", "quantifier": "all declarations (any number of alternatives, fields, map entries), any number of threads, all schedules of their steps", "why_tests_cant": "The order of steps of threads cannot be chosen in a test, and there are unboundedly many of them; the failures need a switch between two particular bytecodes.", "anchors": ["asn1crypto/core.py:_SETUP_CLASSES", "asn1crypto/core.py:Asn1Value.__init__", "asn1crypto/core.py:ValueMap._setup", "asn1crypto/core.py:Choice._setup", "asn1crypto/core.py:Sequence._setup", "asn1crypto/core.py:Set._setup"]}
{"id": "C63", "title": "The kind of each certificate in a CMS certificate set is recognised", "statement": "An element of the certificate set of a CMS message loads as the alternative its tag stands for: an X.509 certificate, an extended certificate, an attribute certificate of version 1 or 2, or another format. An attribute certificate of version 2 that a broken encoder gave the tag of version 1 loads as one of version 2, with the same contents as when it has the right tag. Attribute certificates of version 1 load whether their version is written out or, as DER prescribes for a default, left out.", "quantifier": "all octet sequences that are BER elements of any class and tag, with whatever behind them when loading is not strict; all attribute certificates, whatever their versions, subjects and contents", "why_tests_cant": "The version is found by reading the contents without a definition, so the outcome depends on what the first element inside the certificate is; version 1 certificates with and without the version, mis-tagged ones and those of other classes are each a different path, and the test suite has one file of one kind.", "anchors": ["asn1crypto/cms.py: CertificateChoices.validate, AttributeCertificateV1, AttributeCertificateV2._bad_tag, AttCertVersion, CertificateChoices.load", "asn1crypto/core.py: Choice.validate, _build"]}
{"id": "C64", "title": "Wrapping a DSA private key gives the DER PrivateKeyInfo with exactly its parameters and its private value", "statement": "For every DSA private key - a SEQUENCE of version, p, q, g, public value and private value whose six INTEGERs are in DER, whatever form of BER its own header has - PrivateKeyInfo.wrap(key, 'dsa') with the bytes of the key, or with the instance loaded from them, gives a container whose dump() is the DER encoding of SEQUENCE { INTEGER 0, SEQUENCE { OBJECT IDENTIFIER 1.2.840.10040.4.1, SEQUENCE { p, q, g } }, OCTET STRING containing the INTEGER of the private value }, with the elements of the key octet for octet. Loading this gives version 0, the algorithm 'dsa', the three parameters, the private value and no attributes. The public value, which the container has no field for, is kept as that of the key. Bytes that do not load as such a key and instances of other classes are refused.", "quantifier": "all DSA keys with numbers of any size, given as bytes or as a loaded instance", "why_tests_cant": "The numbers are re-used as instances that were parsed lazily, put into other structures and written from their stored or recomputed headers (an INTEGER whose header ends with the octet 80 is encoded anew); tests wrap one key.", "anchors": ["asn1crypto/keys.py: PrivateKeyInfo.wrap, PrivateKeyInfo.__setitem__, DSAPrivateKey, DSAParams", "asn1crypto/core.py: Sequence.__setitem__, Sequence._make_value, Sequence._set_contents, Asn1Value.dump"]}
{"id": "C65", "title": "Wrapping an EC private key moves its curve into the algorithm and keeps the rest octet for octet", "statement": "For every EC private key that names its curve - a SEQUENCE of version 1, an OCTET STRING in DER, the explicitly tagged curve and optionally the explicitly tagged public key, whatever form of BER the headers of the SEQUENCE and of the curve have - whose curve has a known size and whose private number fits into it, PrivateKeyInfo.wrap(key, 'ec') with the bytes of the key, or with the instance loaded from them, gives a container whose dump() is the DER encoding of SEQUENCE { INTEGER 0, SEQUENCE { OBJECT IDENTIFIER 1.2.840.10045.2.1, the curve }, OCTET STRING containing SEQUENCE { INTEGER 1, the private key, the public key } }, the private and the public key octet for octet. Loading this gives version 0, the algorithm 'ec', the name of the curve, the private number and the point, and no parameters inside the key. The parsed private key of the container has exactly as many octets as the order of the curve. Keys with a larger number, of unknown curves or without a curve, bytes that do not load and instances of other classes are refused.", "quantifier": "all EC private keys with private keys and points of any length and any named curve, for every table of curve sizes, given as bytes or as a loaded instance", "why_tests_cant": "The key is copied, a field is deleted, the parameters are re-tagged from an explicit field into an algorithm identifier, and a width is imposed on a number that was already written; each step depends on which headers and contents are stored. Tests wrap keys of two or three curves, already at their full width and with definite lengths.", "anchors": ["asn1crypto/keys.py: PrivateKeyInfo.wrap, PrivateKeyInfo.__setitem__, ECPrivateKey, ECDomainParameters, NamedCurve", "asn1crypto/core.py: Sequence.__setitem__, Sequence.__delitem__, Sequence._make_value, Sequence.copy, IntegerOctetString.set_encoded_width"]}
{"id": "C66", "title": "The text of a name is prepared for comparison as RFC 4518 says", "statement": "Before names are compared, the text of an attribute is mapped (RFC 4518 section 2.2: control codes, soft hyphens and variation selectors to nothing, separators and line ends to spaces), case-folded and normalised; it is refused with ValueError exactly if it then has a prohibited character (unassigned, private use, surrogate, non-character, display-changing, or U+FFFD) or mixes right-to-left with left-to-right text; otherwise spaces are made uniform: one at both ends and two between words. Byte strings are compared byte by byte and refused if they have a byte that code page 1252 does not define.", "quantifier": "all Unicode texts and byte strings, any tables of Unicode properties", "why_tests_cant": "all of Unicode, and texts of any length; the ranges of the RFC are boundaries that samples miss", "anchors": ["asn1crypto/x509.py: NameTypeAndValue.prepped_value, NameTypeAndValue._ldap_string_prep"]}
{"id": "C67", "title": "Pickling keeps the value", "statement": "pickle.loads(pickle.dumps(value)) gives a value of the same class that equals the original: for a value that was loaded, the value as it was loaded, whatever was read of it in between, with the same bytes; for a value built from a native value, one with the same DER encoding and the same native value. This holds for values with field tags and for absent fields too.", "quantifier": "all types, all encodings and native values, all orders of reading, all tags", "why_tests_cant": "unbounded values and types; the class and the bytes alone have to determine the value, which depends on how it came about", "anchors": ["asn1crypto/core.py: Asn1Value.__reduce__, unpickle_helper, Asn1Value.load"]}
{"id": "C68", "title": "cast gives the same encoding another reading", "statement": "value.cast(other_class) between classes for OCTET STRING, or between classes for BIT STRING, keeps the encoding, tags included: dump() of the result is the same bytes, and its native value is what loading those bytes with the other class gives. Casting back gives the value one started with. A class with another tag is refused with TypeError.", "quantifier": "all values of the string classes, loaded or built, all classes with the same tag, all implicit and explicit tags, all length forms", "why_tests_cant": "unbounded encodings, tags and pairs of classes; the state that is copied has to determine both the encoding and the reading", "anchors": ["asn1crypto/core.py: Castable.cast, _as_chunk, native of OctetString, IntegerOctetString, ParsableOctetString, BitString, OctetBitString, IntegerBitString, ParsableOctetBitString"]}
{"id": "C69", "title": "Membership in a list", "statement": "item in value, for a SEQUENCE OF or SET OF and an instance of the class of its elements, is true exactly when one of the elements has the same value as item. None and absent values are never contained, and an instance of another class is refused with TypeError. Asking does not change the list.", "quantifier": "all lists, loaded or built, all classes of elements, all items", "why_tests_cant": "unbounded lists and values; whether two instances are equal depends on their classes and on how each came about", "anchors": ["asn1crypto/core.py: SequenceOf.__contains__, SequenceOf.__iter__, Primitive.__eq__"]}
{"id": "C70", "title": "Fingerprints are digests of the encoding", "statement": "sha1 and sha256 of a certificate, name or list of revoked certificates are the digests of its encoding: for a loaded one, of the bytes it was loaded from, whatever was read of it before and however often the fingerprint was asked for; after a change, of the new encoding. The fingerprint of a public key is the digest of the encoded public key info. The text form is the digest in upper-case hexadecimal with a space between octets, so that different digests have different texts.", "quantifier": "all encodings, all hash functions, all orders of reading and of changes, all digests", "why_tests_cant": "unbounded encodings and histories; the digest is cached, and dump() depends on what was read or changed before", "anchors": ["asn1crypto/x509.py: Certificate.sha1, Certificate.sha256, Certificate.sha1_fingerprint, Certificate.sha256_fingerprint, Name.sha1", "asn1crypto/crl.py: CertificateList.sha1", "asn1crypto/keys.py: PublicKeyInfo.sha1"]}
{"id": "C71", "title": "A Concat is a row of values of fixed length", "statement": "A Concat built from one value for each of its places consists of these values. len() is the number of places, however many values were given, and assignments do not change it. Item access gives the child at a place and raises KeyError for every other number, also a negative one. Assignment replaces the child at that place and nothing else, is refused for what is no ASN.1 value and for values of another class, and dump() is then the encodings of the children one after the other, which is split at the same places when it is loaded.", "quantifier": "all lists of classes, all values, all places, all orders of assignments, all encodings", "why_tests_cant": "unbounded numbers of children, values and assignments", "anchors": ["asn1crypto/core.py: Concat.__init__, Concat.__getitem__, Concat.__setitem__, Concat.__len__, Concat.dump, Concat.load"]}
{"id": "C72", "title": "What a certificate is valid for does not depend on what was read before", "statement": "valid_domains are the DNS names among the alternative names of a certificate, each once, or without alternative names the common names that look like host names; valid_ips are the addresses among the alternative names; ca and max_path_length are what the basic constraints say; issuer_name of an entry of a revocation list is the first directory name of the issuer the entry names, or None. All of these are the same whatever was read before and however often, and if something cannot be decoded they raise each time.", "quantifier": "all certificates and entries, all results of reading their parts, all orders of reading properties", "why_tests_cant": "unbounded lists of names and histories of reads; results are cached in part", "anchors": ["asn1crypto/x509.py: Certificate.valid_domains, Certificate.valid_ips, Certificate.ca, Certificate.max_path_length", "asn1crypto/crl.py: RevokedCertificate.issuer_name"]}
{"id": "C73", "title": "The names of a class do not depend on which classes were used before", "statement": "A class that gives names to its values (directly or by inheritance) accepts exactly the names of its map, each standing for the value the map gives it, so that a name that is set is the name that is read, whatever other classes - its bases, classes derived from it or others - were used before and in whatever order.", "quantifier": "all class hierarchies, all maps, all orders of first uses", "why_tests_cant": "the table from names to values is made at the first use and inherited, so the result can depend on the order of uses of all classes in a process", "anchors": ["asn1crypto/core.py: ValueMap._setup, Asn1Value.__init__, Integer.set, Enumerated.set, ObjectIdentifier.unmap, BitString.set"]}
{"id": "C74", "title": "spec() answers the class a field is held to", "statement": "value.spec(name) of a SEQUENCE or SET answers the class that the field of that name must have at that moment: the declared class, or, when another field decides it, the class the table of the SEQUENCE has for the present value of that field. Asking does not change the value or its encoding, an unknown name raises KeyError, and the answer is the one assignments are checked against. It does not matter whether the value was built, loaded, or loaded and read before.", "quantifier": "all classes with fields, all names, all values in whatever state", "why_tests_cant": "the answer depends on the value of another field and on the state of laziness the value is in; tests ask values that were just built", "anchors": ["asn1crypto/core.py: Sequence.spec, Sequence._determine_spec, Sequence._lazy_child, Sequence.__setitem__"]}
{"id": "C75", "title": "All ways to write tags mean the same", "statement": "A tag may be given to a constructor and to a field as a number, as a class and a number, as a tuple of such pairs, or with the old arguments tag_type, class_ and tag; classes may be names or numbers. All ways to write a tagging give a value the same tags, whether it is made by the constructor or as a field. Arguments that are no tagging are refused with ValueError or TypeError. A field is recognized when loading by the tag that its values have.", "quantifier": "all combinations of the arguments, all classes, all tags, all classes of values", "why_tests_cant": "there are many combinations of the five arguments, and three places that interpret them on their own", "anchors": ["asn1crypto/core.py: Asn1Value.__init__, _tag_type_to_explicit_implicit, _build_id_tuple, CLASS_NAME_TO_NUM_MAP"]}
{"id": "C76", "title": "Short ways into messages are the long ways", "statement": "Pfx.authenticated_safe, CompressedData.decompressed, OCSPResponse.basic_ocsp_response and response_data give what reading the fields one inside the other gives: the safe that the octets of the file (signed or protected by a password) load as, the decompressed octets of the content, the parsed response, or None when there is none. They give the same each time, for the fields the value has now, and leave the value as it is. CRLReason.human_friendly has a text of its own for each reason.", "quantifier": "all values of these classes, in whatever state of laziness, all contents", "why_tests_cant": "the attributes go through optional, lazily parsed and decided fields and keep their answers", "anchors": ["asn1crypto/pkcs12.py: Pfx.authenticated_safe", "asn1crypto/cms.py: CompressedData.decompressed, SignedData", "asn1crypto/ocsp.py: OCSPResponse.basic_ocsp_response, OCSPResponse.response_data", "asn1crypto/crl.py: CRLReason.human_friendly"]}
{"id": "C77", "title": "Registered curves answer the same whenever they are registered", "statement": "However often curves are registered, and whenever the class of curve names was first used, an OID reads as the name registered for it last and has the width registered last; a name is encoded as the OID it was registered for last, and nothing else is accepted as a name: reading a curve and writing its name gives the same curve.", "quantifier": "all histories of registrations (new or repeated names, OIDs and widths) and uses, all starting tables", "why_tests_cant": "the table from names to OIDs is built at the first use and updated afterwards, so the answers can depend on the history", "anchors": ["asn1crypto/keys.py: NamedCurve.register, NamedCurve.key_size", "asn1crypto/core.py: ValueMap._setup, ObjectIdentifier.map, ObjectIdentifier.unmap"]}
{"id": "C78", "title": "The curve of a key is the one its parameters have", "statement": "PublicKeyInfo.curve and PrivateKeyInfo.curve give, for every EC key, the alternative its parameters are in now and the native value of what they hold (None when the curve is left to the CA); keys of other algorithms are refused with ValueError. Asking leaves the key and its encoding as they are.", "quantifier": "all public and private keys, loaded or built, in whatever state of laziness, all parameters", "why_tests_cant": "the attribute goes through decided, lazily parsed fields and a cached algorithm", "anchors": ["asn1crypto/keys.py: PublicKeyInfo.curve, PublicKeyInfo.algorithm, PrivateKeyInfo.curve, PrivateKeyInfo.algorithm, ECDomainParameters", "asn1crypto/core.py: Choice.name, Choice.chosen"]}
{"id": "C79", "title": "Integer conversions do not depend on the version of Python", "statement": "int_to_bytes and int_from_bytes of asn1crypto.util, which are written a second time for Python 2, give the same results there as under Python 3, for all numbers, signed or not, with and without a width, and refuse the same numbers; in particular reading what was written gives the number back.", "quantifier": "all integers, octet strings, signs and widths", "why_tests_cant": "the two versions use different arithmetic (text in base 16 against bit lengths), and the numbers they disagree on are rare", "anchors": ["asn1crypto/util.py: int_to_bytes (Python 2), int_from_bytes (Python 2), int_to_bytes (Python 3), int_from_bytes (Python 3)"]}
{"id": "C80", "title": "States of certificates in OCSP responses", "statement": "The states good and unknown of a certificate in an OCSP response can be set from nothing, from their own name and from a NULL, and every other value is refused with ValueError; the value they read as is their name and can be given back; they are written, forced or not, as the tag of their alternative with no contents, and only such octets are loaded as the state; the two are told apart by their tags alone.", "quantifier": "all values given, all objects loaded or built, forced or not", "why_tests_cant": "the classes replace the setter and the reader of NULL, and forcing a dump goes through both for every object, loaded or built; the tests only read two responses", "anchors": ["asn1crypto/ocsp.py: StatusGood, StatusUnknown, CertStatus", "asn1crypto/core.py: Primitive.__init__, Primitive.dump, Null"]}
{"id": "C81", "title": "Time zones of Python 2 and conversions to UTC", "statement": "The time zones that the package makes itself under Python 2 accept exactly the offsets of whole minutes strictly between -24 and 24 hours and refuse all others with ValueError; for these offsets they have the same names as those of Python 3, are equal exactly if their offsets are, and keep their offset and name when copied or pickled; every offset that is read from the text of a UTCTime or GeneralizedTime is among them. Converting a time to such a zone, or to utc_with_dst, gives the same moment in that zone, the same under both versions, and converting it back gives the time back.", "quantifier": "all offsets, names, times and zones", "why_tests_cant": "offsets, names and times are unbounded in number, and the conversion goes through the standard library's general algorithm with two additions that may leave the range of years", "anchors": ["asn1crypto/util.py: timezone (Python 2), _UtcWithDst, utc_with_dst, _format_offset", "asn1crypto/core.py: UTCTime.set, GeneralizedTime.set, AbstractTime._parsed_time"]}
{"id": "C82", "title": "Object identifiers from arbitrary octets", "statement": "Whatever the contents octets of an OBJECT IDENTIFIER are, its dotted text consists of exactly the arcs of the subidentifiers in them, two contents read as the same text exactly if they have the same subidentifiers, and a forced dump writes the shortest encoding of what was read; contents that are empty, padded or cut off in the middle of a subidentifier are refused.", "quantifier": "all octet strings as contents, all tags", "why_tests_cant": "all octet strings, also those no encoder writes", "anchors": ["asn1crypto/core.py: ObjectIdentifier.dotted, ObjectIdentifier.native, ObjectIdentifier.set, Primitive.dump"]}
{"id": "C83", "title": "Relative object identifiers", "statement": "A RelativeOid made from a dotted text is written with every arc as a subidentifier of its own, as X.690 8.20 says, accepts every list of arcs, and a loaded one reads as exactly the arcs of its subidentifiers; what was written reads as the same text when it is loaded.", "quantifier": "all lists of arcs, all contents octets", "why_tests_cant": "all lists of arcs and contents; the class has no tests, and its own round trip hides that the octets are not those of the standard", "anchors": ["asn1crypto/core.py: RelativeOid, ObjectIdentifier.set, ObjectIdentifier.dotted"]}
{"id": "C84", "title": "Values of the types without an implementation are kept", "statement": "An ObjectDescriptor, InstanceOf or Real loads from exactly the primitive encodings under its tag, keeps its contents and is written again exactly as it was read; a byte string set as its value is written under the tag of the class and loads as the same contents; the value can be read.", "quantifier": "all byte strings loaded or set, under any implicit tag", "why_tests_cant": "the failing lengths (128, 384, 640, ... octets) are a residue class no sample is likely to meet, and the classes have no tests", "anchors": ["asn1crypto/core.py: ObjectDescriptor, InstanceOf, Real, Primitive.set, Primitive.dump"]}
