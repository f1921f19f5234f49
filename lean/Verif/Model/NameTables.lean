import Verif.Model.Oid

/-! # Tables of `NameType` and `NameTypeAndValue` (`x509.py`) -/

namespace Asn1.Names
open Asn1

/-- `NameType._map` (x509.py:505-546) -/
def nameMap : StrMap := [
  ("2.5.4.3".toList, "common_name".toList),
  ("2.5.4.4".toList, "surname".toList),
  ("2.5.4.5".toList, "serial_number".toList),
  ("2.5.4.6".toList, "country_name".toList),
  ("2.5.4.7".toList, "locality_name".toList),
  ("2.5.4.8".toList, "state_or_province_name".toList),
  ("2.5.4.9".toList, "street_address".toList),
  ("2.5.4.10".toList, "organization_name".toList),
  ("2.5.4.11".toList, "organizational_unit_name".toList),
  ("2.5.4.12".toList, "title".toList),
  ("2.5.4.15".toList, "business_category".toList),
  ("2.5.4.17".toList, "postal_code".toList),
  ("2.5.4.20".toList, "telephone_number".toList),
  ("2.5.4.41".toList, "name".toList),
  ("2.5.4.42".toList, "given_name".toList),
  ("2.5.4.43".toList, "initials".toList),
  ("2.5.4.44".toList, "generation_qualifier".toList),
  ("2.5.4.45".toList, "unique_identifier".toList),
  ("2.5.4.46".toList, "dn_qualifier".toList),
  ("2.5.4.65".toList, "pseudonym".toList),
  ("2.5.4.97".toList, "organization_identifier".toList),
  ("2.23.133.2.1".toList, "tpm_manufacturer".toList),
  ("2.23.133.2.2".toList, "tpm_model".toList),
  ("2.23.133.2.3".toList, "tpm_version".toList),
  ("2.23.133.2.4".toList, "platform_manufacturer".toList),
  ("2.23.133.2.5".toList, "platform_model".toList),
  ("2.23.133.2.6".toList, "platform_version".toList),
  ("1.2.840.113549.1.9.1".toList, "email_address".toList),
  ("1.3.6.1.4.1.311.60.2.1.1".toList, "incorporation_locality".toList),
  ("1.3.6.1.4.1.311.60.2.1.2".toList, "incorporation_state_or_province".toList),
  ("1.3.6.1.4.1.311.60.2.1.3".toList, "incorporation_country".toList),
  ("0.9.2342.19200300.100.1.1".toList, "user_id".toList),
  ("0.9.2342.19200300.100.1.25".toList, "domain_component".toList),
  ("0.2.262.1.10.7.20".toList, "name_distinguisher".toList)]

/-- `NameType.preferred_order` (x509.py:551-585) -/
def preferredOrder : List Str := [
  "incorporation_country".toList,
  "incorporation_state_or_province".toList,
  "incorporation_locality".toList,
  "business_category".toList,
  "serial_number".toList,
  "country_name".toList,
  "postal_code".toList,
  "state_or_province_name".toList,
  "locality_name".toList,
  "street_address".toList,
  "organization_name".toList,
  "organizational_unit_name".toList,
  "title".toList,
  "common_name".toList,
  "user_id".toList,
  "initials".toList,
  "generation_qualifier".toList,
  "surname".toList,
  "given_name".toList,
  "name".toList,
  "pseudonym".toList,
  "dn_qualifier".toList,
  "telephone_number".toList,
  "email_address".toList,
  "domain_component".toList,
  "name_distinguisher".toList,
  "organization_identifier".toList,
  "tpm_manufacturer".toList,
  "tpm_model".toList,
  "tpm_version".toList,
  "platform_manufacturer".toList,
  "platform_model".toList,
  "platform_version".toList]

/-- The classes that occur as attribute values. -/
inductive ValueClass where
  | directoryString
  | printableString
  | utf8String
  | octetBitString
  | emailAddress
  | dnsName
  deriving DecidableEq, Repr

/-- `NameTypeAndValue._oid_specs` (x509.py:659-696) -/
def valueSpecs : List (Str × ValueClass) := [
  ("common_name".toList, .directoryString),
  ("surname".toList, .directoryString),
  ("serial_number".toList, .directoryString),
  ("country_name".toList, .directoryString),
  ("locality_name".toList, .directoryString),
  ("state_or_province_name".toList, .directoryString),
  ("street_address".toList, .directoryString),
  ("organization_name".toList, .directoryString),
  ("organizational_unit_name".toList, .directoryString),
  ("title".toList, .directoryString),
  ("business_category".toList, .directoryString),
  ("postal_code".toList, .directoryString),
  ("telephone_number".toList, .printableString),
  ("name".toList, .directoryString),
  ("given_name".toList, .directoryString),
  ("initials".toList, .directoryString),
  ("generation_qualifier".toList, .directoryString),
  ("unique_identifier".toList, .octetBitString),
  ("dn_qualifier".toList, .directoryString),
  ("pseudonym".toList, .directoryString),
  ("email_address".toList, .emailAddress),
  ("incorporation_locality".toList, .directoryString),
  ("incorporation_state_or_province".toList, .directoryString),
  ("incorporation_country".toList, .directoryString),
  ("domain_component".toList, .dnsName),
  ("name_distinguisher".toList, .directoryString),
  ("organization_identifier".toList, .directoryString),
  ("tpm_manufacturer".toList, .utf8String),
  ("tpm_model".toList, .utf8String),
  ("tpm_version".toList, .utf8String),
  ("platform_manufacturer".toList, .utf8String),
  ("platform_model".toList, .utf8String),
  ("platform_version".toList, .utf8String),
  ("user_id".toList, .directoryString)]

end Asn1.Names
