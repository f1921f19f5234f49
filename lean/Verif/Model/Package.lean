import Verif.Model.Core

/-!
# The class definitions of the package

Every class of core.py, algos.py, keys.py, x509.py, crl.py, ocsp.py, csr.py, cms.py, tsp.py, pkcs12.py and pdf.py that describes a type, as a `Shape`:
generated from the source text (`_fields`, `_alternatives`, `_child_spec`, `_map`, `_oid_pair`, `_oid_specs`, `_spec_callbacks`, `_bad_tag`, and
the assignments to them at the end of the modules), with all modules imported.

Simplifications: the text of a character string, a time, and of the classes with a conversion of their own (DNSName, URI, EmailAddress, IPAddress,
NotReallyTeletexString) is what an arbitrary conversion of the contents octets gives (`Codecs`). Their `set` methods do not reset the indefinite-length marker,
which makes no difference as nothing reads it again before `dump` resets the method (core.py:651-652). `native` of `Name` (x509.py:1076-1086) and of `StatusGood`
and `StatusUnknown` (ocsp.py:324-375) is that of the base class. `__setitem__` of some classes is not modelled here. A field declared without spec is of class
`Any`. Missing are the classes that cannot be read: `ObjectDescriptor`, `InstanceOf`, `Real`, and `TrustedCertificate`, which is a `Concat`.
`CertificateChoices.validate` (cms.py:491-514), which does more than the method of the base class for the alternative `v1_attr_cert`, is in Model/AttrCert.lean.
-/

namespace Asn1.Pkg

/-- How contents octets are decoded to text and back, by the classes named. -/
structure Codecs where
  utf8 : Codec
  latin1 : Codec
  ascii : Codec
  ucs2 : Codec
  ucs4 : Codec
  teletex : Codec
  cp1252 : Codec
  idna : Codec
  mail : Codec
  uri : Codec
  ip : Codec
  time : Codec

/-! ### Numbers of the classes -/

/-- See below. -/
abbrev Id.core.Any : ClassId := 0
/-- See below. -/
abbrev Id.core.Boolean : ClassId := 1
/-- See below. -/
abbrev Id.core.Integer : ClassId := 2
/-- See below. -/
abbrev Id.core.BitString : ClassId := 3
/-- See below. -/
abbrev Id.core.OctetBitString : ClassId := 4
/-- See below. -/
abbrev Id.core.IntegerBitString : ClassId := 5
/-- See below. -/
abbrev Id.core.OctetString : ClassId := 6
/-- See below. -/
abbrev Id.core.IntegerOctetString : ClassId := 7
/-- See below. -/
abbrev Id.core.ParsableOctetString : ClassId := 8
/-- See below. -/
abbrev Id.core.ParsableOctetBitString : ClassId := 9
/-- See below. -/
abbrev Id.core.Null : ClassId := 10
/-- See below. -/
abbrev Id.core.ObjectIdentifier : ClassId := 11
/-- See below. -/
abbrev Id.core.Enumerated : ClassId := 12
/-- See below. -/
abbrev Id.core.UTF8String : ClassId := 13
/-- See below. -/
abbrev Id.core.RelativeOid : ClassId := 14
/-- See below. -/
abbrev Id.core.Sequence : ClassId := 15
/-- See below. -/
abbrev Id.core.SequenceOf : ClassId := 16
/-- See below. -/
abbrev Id.core.Set : ClassId := 17
/-- See below. -/
abbrev Id.core.SetOf : ClassId := 18
/-- See below. -/
abbrev Id.core.EmbeddedPdv : ClassId := 19
/-- See below. -/
abbrev Id.core.NumericString : ClassId := 20
/-- See below. -/
abbrev Id.core.PrintableString : ClassId := 21
/-- See below. -/
abbrev Id.core.TeletexString : ClassId := 22
/-- See below. -/
abbrev Id.core.VideotexString : ClassId := 23
/-- See below. -/
abbrev Id.core.IA5String : ClassId := 24
/-- See below. -/
abbrev Id.core.UTCTime : ClassId := 25
/-- See below. -/
abbrev Id.core.GeneralizedTime : ClassId := 26
/-- See below. -/
abbrev Id.core.GraphicString : ClassId := 27
/-- See below. -/
abbrev Id.core.VisibleString : ClassId := 28
/-- See below. -/
abbrev Id.core.GeneralString : ClassId := 29
/-- See below. -/
abbrev Id.core.UniversalString : ClassId := 30
/-- See below. -/
abbrev Id.core.CharacterString : ClassId := 31
/-- See below. -/
abbrev Id.core.BMPString : ClassId := 32
/-- See below. -/
abbrev Id.algos.AlgorithmIdentifier : ClassId := 33
/-- See below. -/
abbrev Id.algos.HmacAlgorithmId : ClassId := 34
/-- See below. -/
abbrev Id.algos.HmacAlgorithm : ClassId := 35
/-- See below. -/
abbrev Id.algos.DigestAlgorithmId : ClassId := 36
/-- See below. -/
abbrev Id.algos.DigestAlgorithm : ClassId := 37
/-- See below. -/
abbrev Id.algos.DigestInfo : ClassId := 38
/-- See below. -/
abbrev Id.algos.MaskGenAlgorithmId : ClassId := 39
/-- See below. -/
abbrev Id.algos.MaskGenAlgorithm : ClassId := 40
/-- See below. -/
abbrev Id.algos.TrailerField : ClassId := 41
/-- See below. -/
abbrev Id.algos.RSASSAPSSParams : ClassId := 42
/-- See below. -/
abbrev Id.algos.SignedDigestAlgorithmId : ClassId := 43
/-- See below. -/
abbrev Id.algos.SignedDigestAlgorithm : ClassId := 44
/-- See below. -/
abbrev Id.algos.Pbkdf2Salt : ClassId := 45
/-- See below. -/
abbrev Id.algos.Pbkdf2Params : ClassId := 46
/-- See below. -/
abbrev Id.algos.ScryptParams : ClassId := 47
/-- See below. -/
abbrev Id.algos.KdfAlgorithmId : ClassId := 48
/-- See below. -/
abbrev Id.algos.KdfAlgorithm : ClassId := 49
/-- See below. -/
abbrev Id.algos.DHParameters : ClassId := 50
/-- See below. -/
abbrev Id.algos.KeyExchangeAlgorithmId : ClassId := 51
/-- See below. -/
abbrev Id.algos.KeyExchangeAlgorithm : ClassId := 52
/-- See below. -/
abbrev Id.algos.Rc2Params : ClassId := 53
/-- See below. -/
abbrev Id.algos.Rc5ParamVersion : ClassId := 54
/-- See below. -/
abbrev Id.algos.Rc5Params : ClassId := 55
/-- See below. -/
abbrev Id.algos.Pbes1Params : ClassId := 56
/-- See below. -/
abbrev Id.algos.CcmParams : ClassId := 57
/-- See below. -/
abbrev Id.algos.PSourceAlgorithmId : ClassId := 58
/-- See below. -/
abbrev Id.algos.PSourceAlgorithm : ClassId := 59
/-- See below. -/
abbrev Id.algos.RSAESOAEPParams : ClassId := 60
/-- See below. -/
abbrev Id.algos.DSASignature : ClassId := 61
/-- See below. -/
abbrev Id.algos.EncryptionAlgorithmId : ClassId := 62
/-- See below. -/
abbrev Id.algos.EncryptionAlgorithm : ClassId := 63
/-- See below. -/
abbrev Id.algos.Pbes2Params : ClassId := 64
/-- See below. -/
abbrev Id.algos.Pbmac1Params : ClassId := 65
/-- See below. -/
abbrev Id.algos.Pkcs5MacId : ClassId := 66
/-- See below. -/
abbrev Id.algos.Pkcs5MacAlgorithm : ClassId := 67
/-- See below. -/
abbrev Id.algos.AnyAlgorithmId : ClassId := 68
/-- See below. -/
abbrev Id.algos.AnyAlgorithmIdentifier : ClassId := 69
/-- See below. -/
abbrev Id.keys.OtherPrimeInfo : ClassId := 70
/-- See below. -/
abbrev Id.keys.OtherPrimeInfos : ClassId := 71
/-- See below. -/
abbrev Id.keys.RSAPrivateKeyVersion : ClassId := 72
/-- See below. -/
abbrev Id.keys.RSAPrivateKey : ClassId := 73
/-- See below. -/
abbrev Id.keys.RSAPublicKey : ClassId := 74
/-- See below. -/
abbrev Id.keys.DSAPrivateKey : ClassId := 75
/-- See below. -/
abbrev Id.keys.ECPoint : ClassId := 76
/-- See below. -/
abbrev Id.keys.ECPointBitString : ClassId := 77
/-- See below. -/
abbrev Id.keys.SpecifiedECDomainVersion : ClassId := 78
/-- See below. -/
abbrev Id.keys.FieldType : ClassId := 79
/-- See below. -/
abbrev Id.keys.CharacteristicTwoBasis : ClassId := 80
/-- See below. -/
abbrev Id.keys.Pentanomial : ClassId := 81
/-- See below. -/
abbrev Id.keys.CharacteristicTwo : ClassId := 82
/-- See below. -/
abbrev Id.keys.FieldID : ClassId := 83
/-- See below. -/
abbrev Id.keys.Curve : ClassId := 84
/-- See below. -/
abbrev Id.keys.SpecifiedECDomain : ClassId := 85
/-- See below. -/
abbrev Id.keys.NamedCurve : ClassId := 86
/-- See below. -/
abbrev Id.keys.ECDomainParameters : ClassId := 87
/-- See below. -/
abbrev Id.keys.ECPrivateKeyVersion : ClassId := 88
/-- See below. -/
abbrev Id.keys.ECPrivateKey : ClassId := 89
/-- See below. -/
abbrev Id.keys.DSAParams : ClassId := 90
/-- See below. -/
abbrev Id.keys.Attribute : ClassId := 91
/-- See below. -/
abbrev Id.keys.Attributes : ClassId := 92
/-- See below. -/
abbrev Id.keys.PrivateKeyAlgorithmId : ClassId := 93
/-- See below. -/
abbrev Id.keys.PrivateKeyAlgorithm : ClassId := 94
/-- See below. -/
abbrev Id.keys.PrivateKeyInfo : ClassId := 95
/-- See below. -/
abbrev Id.keys.EncryptedPrivateKeyInfo : ClassId := 96
/-- See below. -/
abbrev Id.keys.ValidationParms : ClassId := 97
/-- See below. -/
abbrev Id.keys.DomainParameters : ClassId := 98
/-- See below. -/
abbrev Id.keys.PublicKeyAlgorithmId : ClassId := 99
/-- See below. -/
abbrev Id.keys.PublicKeyAlgorithm : ClassId := 100
/-- See below. -/
abbrev Id.keys.PublicKeyInfo : ClassId := 101
/-- See below. -/
abbrev Id.x509.DNSName : ClassId := 102
/-- See below. -/
abbrev Id.x509.URI : ClassId := 103
/-- See below. -/
abbrev Id.x509.EmailAddress : ClassId := 104
/-- See below. -/
abbrev Id.x509.IPAddress : ClassId := 105
/-- See below. -/
abbrev Id.x509.Attribute : ClassId := 106
/-- See below. -/
abbrev Id.x509.Attributes : ClassId := 107
/-- See below. -/
abbrev Id.x509.KeyUsage : ClassId := 108
/-- See below. -/
abbrev Id.x509.PrivateKeyUsagePeriod : ClassId := 109
/-- See below. -/
abbrev Id.x509.NotReallyTeletexString : ClassId := 110
/-- See below. -/
abbrev Id.x509.DirectoryString : ClassId := 111
/-- See below. -/
abbrev Id.x509.NameType : ClassId := 112
/-- See below. -/
abbrev Id.x509.NameTypeAndValue : ClassId := 113
/-- See below. -/
abbrev Id.x509.RelativeDistinguishedName : ClassId := 114
/-- See below. -/
abbrev Id.x509.RDNSequence : ClassId := 115
/-- See below. -/
abbrev Id.x509.Name : ClassId := 116
/-- See below. -/
abbrev Id.x509.AnotherName : ClassId := 117
/-- See below. -/
abbrev Id.x509.PrivateDomainName : ClassId := 118
/-- See below. -/
abbrev Id.x509.PersonalName : ClassId := 119
/-- See below. -/
abbrev Id.x509.TeletexPersonalName : ClassId := 120
/-- See below. -/
abbrev Id.x509.OrganizationalUnitNames : ClassId := 121
/-- See below. -/
abbrev Id.x509.TeletexOrganizationalUnitNames : ClassId := 122
/-- See below. -/
abbrev Id.x509.BuiltInDomainDefinedAttribute : ClassId := 123
/-- See below. -/
abbrev Id.x509.BuiltInDomainDefinedAttributes : ClassId := 124
/-- See below. -/
abbrev Id.x509.TeletexDomainDefinedAttribute : ClassId := 125
/-- See below. -/
abbrev Id.x509.TeletexDomainDefinedAttributes : ClassId := 126
/-- See below. -/
abbrev Id.x509.PhysicalDeliveryCountryName : ClassId := 127
/-- See below. -/
abbrev Id.x509.PostalCode : ClassId := 128
/-- See below. -/
abbrev Id.x509.PDSParameter : ClassId := 129
/-- See below. -/
abbrev Id.x509.PrintableAddress : ClassId := 130
/-- See below. -/
abbrev Id.x509.UnformattedPostalAddress : ClassId := 131
/-- See below. -/
abbrev Id.x509.E1634Address : ClassId := 132
/-- See below. -/
abbrev Id.x509.NAddresses : ClassId := 133
/-- See below. -/
abbrev Id.x509.PresentationAddress : ClassId := 134
/-- See below. -/
abbrev Id.x509.ExtendedNetworkAddress : ClassId := 135
/-- See below. -/
abbrev Id.x509.TerminalType : ClassId := 136
/-- See below. -/
abbrev Id.x509.ExtensionAttributeType : ClassId := 137
/-- See below. -/
abbrev Id.x509.ExtensionAttribute : ClassId := 138
/-- See below. -/
abbrev Id.x509.ExtensionAttributes : ClassId := 139
/-- See below. -/
abbrev Id.x509.GeneralName : ClassId := 140
/-- See below. -/
abbrev Id.x509.GeneralNames : ClassId := 141
/-- See below. -/
abbrev Id.x509.Time : ClassId := 142
/-- See below. -/
abbrev Id.x509.Validity : ClassId := 143
/-- See below. -/
abbrev Id.x509.BasicConstraints : ClassId := 144
/-- See below. -/
abbrev Id.x509.AuthorityKeyIdentifier : ClassId := 145
/-- See below. -/
abbrev Id.x509.DistributionPointName : ClassId := 146
/-- See below. -/
abbrev Id.x509.ReasonFlags : ClassId := 147
/-- See below. -/
abbrev Id.x509.GeneralSubtree : ClassId := 148
/-- See below. -/
abbrev Id.x509.GeneralSubtrees : ClassId := 149
/-- See below. -/
abbrev Id.x509.NameConstraints : ClassId := 150
/-- See below. -/
abbrev Id.x509.DistributionPoint : ClassId := 151
/-- See below. -/
abbrev Id.x509.CRLDistributionPoints : ClassId := 152
/-- See below. -/
abbrev Id.x509.DisplayText : ClassId := 153
/-- See below. -/
abbrev Id.x509.NoticeNumbers : ClassId := 154
/-- See below. -/
abbrev Id.x509.NoticeReference : ClassId := 155
/-- See below. -/
abbrev Id.x509.UserNotice : ClassId := 156
/-- See below. -/
abbrev Id.x509.PolicyQualifierId : ClassId := 157
/-- See below. -/
abbrev Id.x509.PolicyQualifierInfo : ClassId := 158
/-- See below. -/
abbrev Id.x509.PolicyQualifierInfos : ClassId := 159
/-- See below. -/
abbrev Id.x509.PolicyIdentifier : ClassId := 160
/-- See below. -/
abbrev Id.x509.PolicyInformation : ClassId := 161
/-- See below. -/
abbrev Id.x509.CertificatePolicies : ClassId := 162
/-- See below. -/
abbrev Id.x509.PolicyMapping : ClassId := 163
/-- See below. -/
abbrev Id.x509.PolicyMappings : ClassId := 164
/-- See below. -/
abbrev Id.x509.PolicyConstraints : ClassId := 165
/-- See below. -/
abbrev Id.x509.KeyPurposeId : ClassId := 166
/-- See below. -/
abbrev Id.x509.ExtKeyUsageSyntax : ClassId := 167
/-- See below. -/
abbrev Id.x509.AccessMethod : ClassId := 168
/-- See below. -/
abbrev Id.x509.AccessDescription : ClassId := 169
/-- See below. -/
abbrev Id.x509.AuthorityInfoAccessSyntax : ClassId := 170
/-- See below. -/
abbrev Id.x509.SubjectInfoAccessSyntax : ClassId := 171
/-- See below. -/
abbrev Id.x509.Features : ClassId := 172
/-- See below. -/
abbrev Id.x509.EntrustVersionInfo : ClassId := 173
/-- See below. -/
abbrev Id.x509.NetscapeCertificateType : ClassId := 174
/-- See below. -/
abbrev Id.x509.Version : ClassId := 175
/-- See below. -/
abbrev Id.x509.TPMSpecification : ClassId := 176
/-- See below. -/
abbrev Id.x509.SetOfTPMSpecification : ClassId := 177
/-- See below. -/
abbrev Id.x509.TCGSpecificationVersion : ClassId := 178
/-- See below. -/
abbrev Id.x509.TCGPlatformSpecification : ClassId := 179
/-- See below. -/
abbrev Id.x509.SetOfTCGPlatformSpecification : ClassId := 180
/-- See below. -/
abbrev Id.x509.EKGenerationType : ClassId := 181
/-- See below. -/
abbrev Id.x509.EKGenerationLocation : ClassId := 182
/-- See below. -/
abbrev Id.x509.EKCertificateGenerationLocation : ClassId := 183
/-- See below. -/
abbrev Id.x509.EvaluationAssuranceLevel : ClassId := 184
/-- See below. -/
abbrev Id.x509.EvaluationStatus : ClassId := 185
/-- See below. -/
abbrev Id.x509.StrengthOfFunction : ClassId := 186
/-- See below. -/
abbrev Id.x509.URIReference : ClassId := 187
/-- See below. -/
abbrev Id.x509.CommonCriteriaMeasures : ClassId := 188
/-- See below. -/
abbrev Id.x509.SecurityLevel : ClassId := 189
/-- See below. -/
abbrev Id.x509.FIPSLevel : ClassId := 190
/-- See below. -/
abbrev Id.x509.TPMSecurityAssertions : ClassId := 191
/-- See below. -/
abbrev Id.x509.SetOfTPMSecurityAssertions : ClassId := 192
/-- See below. -/
abbrev Id.x509.SubjectDirectoryAttributeId : ClassId := 193
/-- See below. -/
abbrev Id.x509.SetOfGeneralizedTime : ClassId := 194
/-- See below. -/
abbrev Id.x509.SetOfDirectoryString : ClassId := 195
/-- See below. -/
abbrev Id.x509.SetOfPrintableString : ClassId := 196
/-- See below. -/
abbrev Id.x509.SupportedAlgorithm : ClassId := 197
/-- See below. -/
abbrev Id.x509.SetOfSupportedAlgorithm : ClassId := 198
/-- See below. -/
abbrev Id.x509.SubjectDirectoryAttribute : ClassId := 199
/-- See below. -/
abbrev Id.x509.SubjectDirectoryAttributes : ClassId := 200
/-- See below. -/
abbrev Id.x509.ExtensionId : ClassId := 201
/-- See below. -/
abbrev Id.x509.Extension : ClassId := 202
/-- See below. -/
abbrev Id.x509.Extensions : ClassId := 203
/-- See below. -/
abbrev Id.x509.TbsCertificate : ClassId := 204
/-- See below. -/
abbrev Id.x509.Certificate : ClassId := 205
/-- See below. -/
abbrev Id.x509.KeyPurposeIdentifiers : ClassId := 206
/-- See below. -/
abbrev Id.x509.SequenceOfAlgorithmIdentifiers : ClassId := 207
/-- See below. -/
abbrev Id.x509.CertificateAux : ClassId := 208
/-- See below. -/
abbrev Id.crl.Version : ClassId := 209
/-- See below. -/
abbrev Id.crl.IssuingDistributionPoint : ClassId := 210
/-- See below. -/
abbrev Id.crl.TBSCertListExtensionId : ClassId := 211
/-- See below. -/
abbrev Id.crl.TBSCertListExtension : ClassId := 212
/-- See below. -/
abbrev Id.crl.TBSCertListExtensions : ClassId := 213
/-- See below. -/
abbrev Id.crl.CRLReason : ClassId := 214
/-- See below. -/
abbrev Id.crl.CRLEntryExtensionId : ClassId := 215
/-- See below. -/
abbrev Id.crl.CRLEntryExtension : ClassId := 216
/-- See below. -/
abbrev Id.crl.CRLEntryExtensions : ClassId := 217
/-- See below. -/
abbrev Id.crl.RevokedCertificate : ClassId := 218
/-- See below. -/
abbrev Id.crl.RevokedCertificates : ClassId := 219
/-- See below. -/
abbrev Id.crl.TbsCertList : ClassId := 220
/-- See below. -/
abbrev Id.crl.CertificateList : ClassId := 221
/-- See below. -/
abbrev Id.ocsp.Version : ClassId := 222
/-- See below. -/
abbrev Id.ocsp.CertId : ClassId := 223
/-- See below. -/
abbrev Id.ocsp.ServiceLocator : ClassId := 224
/-- See below. -/
abbrev Id.ocsp.RequestExtensionId : ClassId := 225
/-- See below. -/
abbrev Id.ocsp.RequestExtension : ClassId := 226
/-- See below. -/
abbrev Id.ocsp.RequestExtensions : ClassId := 227
/-- See below. -/
abbrev Id.ocsp.Request : ClassId := 228
/-- See below. -/
abbrev Id.ocsp.Requests : ClassId := 229
/-- See below. -/
abbrev Id.ocsp.ResponseType : ClassId := 230
/-- See below. -/
abbrev Id.ocsp.AcceptableResponses : ClassId := 231
/-- See below. -/
abbrev Id.ocsp.PreferredSignatureAlgorithm : ClassId := 232
/-- See below. -/
abbrev Id.ocsp.PreferredSignatureAlgorithms : ClassId := 233
/-- See below. -/
abbrev Id.ocsp.TBSRequestExtensionId : ClassId := 234
/-- See below. -/
abbrev Id.ocsp.TBSRequestExtension : ClassId := 235
/-- See below. -/
abbrev Id.ocsp.TBSRequestExtensions : ClassId := 236
/-- See below. -/
abbrev Id.ocsp.TBSRequest : ClassId := 237
/-- See below. -/
abbrev Id.ocsp.Certificates : ClassId := 238
/-- See below. -/
abbrev Id.ocsp.Signature : ClassId := 239
/-- See below. -/
abbrev Id.ocsp.OCSPRequest : ClassId := 240
/-- See below. -/
abbrev Id.ocsp.OCSPResponseStatus : ClassId := 241
/-- See below. -/
abbrev Id.ocsp.ResponderId : ClassId := 242
/-- See below. -/
abbrev Id.ocsp.StatusGood : ClassId := 243
/-- See below. -/
abbrev Id.ocsp.StatusUnknown : ClassId := 244
/-- See below. -/
abbrev Id.ocsp.RevokedInfo : ClassId := 245
/-- See below. -/
abbrev Id.ocsp.CertStatus : ClassId := 246
/-- See below. -/
abbrev Id.ocsp.CrlId : ClassId := 247
/-- See below. -/
abbrev Id.ocsp.SingleResponseExtensionId : ClassId := 248
/-- See below. -/
abbrev Id.ocsp.SingleResponseExtension : ClassId := 249
/-- See below. -/
abbrev Id.ocsp.SingleResponseExtensions : ClassId := 250
/-- See below. -/
abbrev Id.ocsp.SingleResponse : ClassId := 251
/-- See below. -/
abbrev Id.ocsp.Responses : ClassId := 252
/-- See below. -/
abbrev Id.ocsp.ResponseDataExtensionId : ClassId := 253
/-- See below. -/
abbrev Id.ocsp.ResponseDataExtension : ClassId := 254
/-- See below. -/
abbrev Id.ocsp.ResponseDataExtensions : ClassId := 255
/-- See below. -/
abbrev Id.ocsp.ResponseData : ClassId := 256
/-- See below. -/
abbrev Id.ocsp.BasicOCSPResponse : ClassId := 257
/-- See below. -/
abbrev Id.ocsp.ResponseBytes : ClassId := 258
/-- See below. -/
abbrev Id.ocsp.OCSPResponse : ClassId := 259
/-- See below. -/
abbrev Id.csr.Version : ClassId := 260
/-- See below. -/
abbrev Id.csr.CSRAttributeType : ClassId := 261
/-- See below. -/
abbrev Id.csr.SetOfDirectoryString : ClassId := 262
/-- See below. -/
abbrev Id.csr.Attribute : ClassId := 263
/-- See below. -/
abbrev Id.csr.SetOfAttributes : ClassId := 264
/-- See below. -/
abbrev Id.csr.SetOfExtensions : ClassId := 265
/-- See below. -/
abbrev Id.csr.MicrosoftEnrollmentCSProvider : ClassId := 266
/-- See below. -/
abbrev Id.csr.SetOfMicrosoftEnrollmentCSProvider : ClassId := 267
/-- See below. -/
abbrev Id.csr.MicrosoftRequestClientInfo : ClassId := 268
/-- See below. -/
abbrev Id.csr.SetOfMicrosoftRequestClientInfo : ClassId := 269
/-- See below. -/
abbrev Id.csr.CRIAttribute : ClassId := 270
/-- See below. -/
abbrev Id.csr.CRIAttributes : ClassId := 271
/-- See below. -/
abbrev Id.csr.CertificationRequestInfo : ClassId := 272
/-- See below. -/
abbrev Id.csr.CertificationRequest : ClassId := 273
/-- See below. -/
abbrev Id.cms.ExtendedCertificateInfo : ClassId := 274
/-- See below. -/
abbrev Id.cms.ExtendedCertificate : ClassId := 275
/-- See below. -/
abbrev Id.cms.CMSVersion : ClassId := 276
/-- See below. -/
abbrev Id.cms.CMSAttributeType : ClassId := 277
/-- See below. -/
abbrev Id.cms.Time : ClassId := 278
/-- See below. -/
abbrev Id.cms.ContentType : ClassId := 279
/-- See below. -/
abbrev Id.cms.CMSAlgorithmProtection : ClassId := 280
/-- See below. -/
abbrev Id.cms.SetOfContentType : ClassId := 281
/-- See below. -/
abbrev Id.cms.SetOfOctetString : ClassId := 282
/-- See below. -/
abbrev Id.cms.SetOfTime : ClassId := 283
/-- See below. -/
abbrev Id.cms.SetOfAny : ClassId := 284
/-- See below. -/
abbrev Id.cms.SetOfCMSAlgorithmProtection : ClassId := 285
/-- See below. -/
abbrev Id.cms.CMSAttribute : ClassId := 286
/-- See below. -/
abbrev Id.cms.CMSAttributes : ClassId := 287
/-- See below. -/
abbrev Id.cms.IssuerSerial : ClassId := 288
/-- See below. -/
abbrev Id.cms.AttCertVersion : ClassId := 289
/-- See below. -/
abbrev Id.cms.AttCertSubject : ClassId := 290
/-- See below. -/
abbrev Id.cms.AttCertValidityPeriod : ClassId := 291
/-- See below. -/
abbrev Id.cms.AttributeCertificateInfoV1 : ClassId := 292
/-- See below. -/
abbrev Id.cms.DigestedObjectType : ClassId := 293
/-- See below. -/
abbrev Id.cms.ObjectDigestInfo : ClassId := 294
/-- See below. -/
abbrev Id.cms.Holder : ClassId := 295
/-- See below. -/
abbrev Id.cms.V2Form : ClassId := 296
/-- See below. -/
abbrev Id.cms.AttCertIssuer : ClassId := 297
/-- See below. -/
abbrev Id.cms.IetfAttrValue : ClassId := 298
/-- See below. -/
abbrev Id.cms.IetfAttrValues : ClassId := 299
/-- See below. -/
abbrev Id.cms.IetfAttrSyntax : ClassId := 300
/-- See below. -/
abbrev Id.cms.SetOfIetfAttrSyntax : ClassId := 301
/-- See below. -/
abbrev Id.cms.SvceAuthInfo : ClassId := 302
/-- See below. -/
abbrev Id.cms.SetOfSvceAuthInfo : ClassId := 303
/-- See below. -/
abbrev Id.cms.RoleSyntax : ClassId := 304
/-- See below. -/
abbrev Id.cms.SetOfRoleSyntax : ClassId := 305
/-- See below. -/
abbrev Id.cms.ClassList : ClassId := 306
/-- See below. -/
abbrev Id.cms.SecurityCategory : ClassId := 307
/-- See below. -/
abbrev Id.cms.SetOfSecurityCategory : ClassId := 308
/-- See below. -/
abbrev Id.cms.Clearance : ClassId := 309
/-- See below. -/
abbrev Id.cms.SetOfClearance : ClassId := 310
/-- See below. -/
abbrev Id.cms.BigTime : ClassId := 311
/-- See below. -/
abbrev Id.cms.LeapData : ClassId := 312
/-- See below. -/
abbrev Id.cms.SetOfLeapData : ClassId := 313
/-- See below. -/
abbrev Id.cms.TimingMetrics : ClassId := 314
/-- See below. -/
abbrev Id.cms.SetOfTimingMetrics : ClassId := 315
/-- See below. -/
abbrev Id.cms.TimingPolicy : ClassId := 316
/-- See below. -/
abbrev Id.cms.SetOfTimingPolicy : ClassId := 317
/-- See below. -/
abbrev Id.cms.AttCertAttributeType : ClassId := 318
/-- See below. -/
abbrev Id.cms.AttCertAttribute : ClassId := 319
/-- See below. -/
abbrev Id.cms.AttCertAttributes : ClassId := 320
/-- See below. -/
abbrev Id.cms.AttributeCertificateInfoV2 : ClassId := 321
/-- See below. -/
abbrev Id.cms.AttributeCertificateV2 : ClassId := 322
/-- See below. -/
abbrev Id.cms.OtherCertificateFormat : ClassId := 323
/-- See below. -/
abbrev Id.cms.CertificateChoices : ClassId := 324
/-- See below. -/
abbrev Id.cms.CertificateSet : ClassId := 325
/-- See below. -/
abbrev Id.cms.ContentInfo : ClassId := 326
/-- See below. -/
abbrev Id.cms.SetOfContentInfo : ClassId := 327
/-- See below. -/
abbrev Id.cms.EncapsulatedContentInfo : ClassId := 328
/-- See below. -/
abbrev Id.cms.IssuerAndSerialNumber : ClassId := 329
/-- See below. -/
abbrev Id.cms.SignerIdentifier : ClassId := 330
/-- See below. -/
abbrev Id.cms.DigestAlgorithms : ClassId := 331
/-- See below. -/
abbrev Id.cms.CertificateRevocationLists : ClassId := 332
/-- See below. -/
abbrev Id.cms.SCVPReqRes : ClassId := 333
/-- See below. -/
abbrev Id.cms.OtherRevInfoFormatId : ClassId := 334
/-- See below. -/
abbrev Id.cms.OtherRevocationInfoFormat : ClassId := 335
/-- See below. -/
abbrev Id.cms.RevocationInfoChoice : ClassId := 336
/-- See below. -/
abbrev Id.cms.RevocationInfoChoices : ClassId := 337
/-- See below. -/
abbrev Id.cms.SignerInfo : ClassId := 338
/-- See below. -/
abbrev Id.cms.SignerInfos : ClassId := 339
/-- See below. -/
abbrev Id.cms.SignedData : ClassId := 340
/-- See below. -/
abbrev Id.cms.OriginatorInfo : ClassId := 341
/-- See below. -/
abbrev Id.cms.RecipientIdentifier : ClassId := 342
/-- See below. -/
abbrev Id.cms.KeyEncryptionAlgorithmId : ClassId := 343
/-- See below. -/
abbrev Id.cms.KeyEncryptionAlgorithm : ClassId := 344
/-- See below. -/
abbrev Id.cms.KeyTransRecipientInfo : ClassId := 345
/-- See below. -/
abbrev Id.cms.OriginatorIdentifierOrKey : ClassId := 346
/-- See below. -/
abbrev Id.cms.OtherKeyAttribute : ClassId := 347
/-- See below. -/
abbrev Id.cms.RecipientKeyIdentifier : ClassId := 348
/-- See below. -/
abbrev Id.cms.KeyAgreementRecipientIdentifier : ClassId := 349
/-- See below. -/
abbrev Id.cms.RecipientEncryptedKey : ClassId := 350
/-- See below. -/
abbrev Id.cms.RecipientEncryptedKeys : ClassId := 351
/-- See below. -/
abbrev Id.cms.KeyAgreeRecipientInfo : ClassId := 352
/-- See below. -/
abbrev Id.cms.KEKIdentifier : ClassId := 353
/-- See below. -/
abbrev Id.cms.KEKRecipientInfo : ClassId := 354
/-- See below. -/
abbrev Id.cms.PasswordRecipientInfo : ClassId := 355
/-- See below. -/
abbrev Id.cms.OtherRecipientInfo : ClassId := 356
/-- See below. -/
abbrev Id.cms.RecipientInfo : ClassId := 357
/-- See below. -/
abbrev Id.cms.RecipientInfos : ClassId := 358
/-- See below. -/
abbrev Id.cms.EncryptedContentInfo : ClassId := 359
/-- See below. -/
abbrev Id.cms.EnvelopedData : ClassId := 360
/-- See below. -/
abbrev Id.cms.SignedAndEnvelopedData : ClassId := 361
/-- See below. -/
abbrev Id.cms.DigestedData : ClassId := 362
/-- See below. -/
abbrev Id.cms.EncryptedData : ClassId := 363
/-- See below. -/
abbrev Id.cms.AuthenticatedData : ClassId := 364
/-- See below. -/
abbrev Id.cms.AuthEnvelopedData : ClassId := 365
/-- See below. -/
abbrev Id.cms.CompressionAlgorithmId : ClassId := 366
/-- See below. -/
abbrev Id.cms.CompressionAlgorithm : ClassId := 367
/-- See below. -/
abbrev Id.cms.CompressedData : ClassId := 368
/-- See below. -/
abbrev Id.cms.SMIMEEncryptionKeyPreference : ClassId := 369
/-- See below. -/
abbrev Id.cms.SMIMEEncryptionKeyPreferences : ClassId := 370
/-- See below. -/
abbrev Id.cms.SMIMECapabilityIdentifier : ClassId := 371
/-- See below. -/
abbrev Id.cms.SMIMECapabilites : ClassId := 372
/-- See below. -/
abbrev Id.cms.SetOfSMIMECapabilites : ClassId := 373
/-- See below. -/
abbrev Id.tsp.Version : ClassId := 374
/-- See below. -/
abbrev Id.tsp.MessageImprint : ClassId := 375
/-- See below. -/
abbrev Id.tsp.Accuracy : ClassId := 376
/-- See below. -/
abbrev Id.tsp.Extension : ClassId := 377
/-- See below. -/
abbrev Id.tsp.Extensions : ClassId := 378
/-- See below. -/
abbrev Id.tsp.TSTInfo : ClassId := 379
/-- See below. -/
abbrev Id.tsp.TimeStampReq : ClassId := 380
/-- See below. -/
abbrev Id.tsp.PKIStatus : ClassId := 381
/-- See below. -/
abbrev Id.tsp.PKIFreeText : ClassId := 382
/-- See below. -/
abbrev Id.tsp.PKIFailureInfo : ClassId := 383
/-- See below. -/
abbrev Id.tsp.PKIStatusInfo : ClassId := 384
/-- See below. -/
abbrev Id.tsp.TimeStampResp : ClassId := 385
/-- See below. -/
abbrev Id.tsp.MetaData : ClassId := 386
/-- See below. -/
abbrev Id.tsp.TimeStampAndCRL : ClassId := 387
/-- See below. -/
abbrev Id.tsp.TimeStampTokenEvidence : ClassId := 388
/-- See below. -/
abbrev Id.tsp.DigestAlgorithms : ClassId := 389
/-- See below. -/
abbrev Id.tsp.EncryptionInfo : ClassId := 390
/-- See below. -/
abbrev Id.tsp.PartialHashtree : ClassId := 391
/-- See below. -/
abbrev Id.tsp.PartialHashtrees : ClassId := 392
/-- See below. -/
abbrev Id.tsp.ArchiveTimeStamp : ClassId := 393
/-- See below. -/
abbrev Id.tsp.ArchiveTimeStampSequence : ClassId := 394
/-- See below. -/
abbrev Id.tsp.EvidenceRecord : ClassId := 395
/-- See below. -/
abbrev Id.tsp.OtherEvidence : ClassId := 396
/-- See below. -/
abbrev Id.tsp.Evidence : ClassId := 397
/-- See below. -/
abbrev Id.tsp.TimeStampedData : ClassId := 398
/-- See below. -/
abbrev Id.tsp.IssuerSerial : ClassId := 399
/-- See below. -/
abbrev Id.tsp.ESSCertID : ClassId := 400
/-- See below. -/
abbrev Id.tsp.ESSCertIDs : ClassId := 401
/-- See below. -/
abbrev Id.tsp.SigningCertificate : ClassId := 402
/-- See below. -/
abbrev Id.tsp.SetOfSigningCertificates : ClassId := 403
/-- See below. -/
abbrev Id.tsp.ESSCertIDv2 : ClassId := 404
/-- See below. -/
abbrev Id.tsp.ESSCertIDv2s : ClassId := 405
/-- See below. -/
abbrev Id.tsp.SigningCertificateV2 : ClassId := 406
/-- See below. -/
abbrev Id.tsp.SetOfSigningCertificatesV2 : ClassId := 407
/-- See below. -/
abbrev Id.pkcs12.MacData : ClassId := 408
/-- See below. -/
abbrev Id.pkcs12.Version : ClassId := 409
/-- See below. -/
abbrev Id.pkcs12.AttributeType : ClassId := 410
/-- See below. -/
abbrev Id.pkcs12.SetOfAny : ClassId := 411
/-- See below. -/
abbrev Id.pkcs12.SetOfBMPString : ClassId := 412
/-- See below. -/
abbrev Id.pkcs12.SetOfOctetString : ClassId := 413
/-- See below. -/
abbrev Id.pkcs12.SetOfKeyPurposeId : ClassId := 414
/-- See below. -/
abbrev Id.pkcs12.Attribute : ClassId := 415
/-- See below. -/
abbrev Id.pkcs12.Attributes : ClassId := 416
/-- See below. -/
abbrev Id.pkcs12.Pfx : ClassId := 417
/-- See below. -/
abbrev Id.pkcs12.AuthenticatedSafe : ClassId := 418
/-- See below. -/
abbrev Id.pkcs12.BagId : ClassId := 419
/-- See below. -/
abbrev Id.pkcs12.CertId : ClassId := 420
/-- See below. -/
abbrev Id.pkcs12.CertBag : ClassId := 421
/-- See below. -/
abbrev Id.pkcs12.CrlBag : ClassId := 422
/-- See below. -/
abbrev Id.pkcs12.SecretBag : ClassId := 423
/-- See below. -/
abbrev Id.pkcs12.SafeContents : ClassId := 424
/-- See below. -/
abbrev Id.pkcs12.SafeBag : ClassId := 425
/-- See below. -/
abbrev Id.pdf.AdobeArchiveRevInfo : ClassId := 426
/-- See below. -/
abbrev Id.pdf.AdobeTimestamp : ClassId := 427
/-- See below. -/
abbrev Id.pdf.OtherRevInfo : ClassId := 428
/-- See below. -/
abbrev Id.pdf.SequenceOfCertificateList : ClassId := 429
/-- See below. -/
abbrev Id.pdf.SequenceOfOCSPResponse : ClassId := 430
/-- See below. -/
abbrev Id.pdf.SequenceOfOtherRevInfo : ClassId := 431
/-- See below. -/
abbrev Id.pdf.RevocationInfoArchival : ClassId := 432
/-- See below. -/
abbrev Id.pdf.SetOfRevocationInfoArchival : ClassId := 433
/-- See below. -/
abbrev Id.spec.SequenceOfObjectIdentifier : ClassId := 434
/-- See below. -/
abbrev Id.spec.SetOfAny : ClassId := 435
/-- See below. -/
abbrev Id.x509.CountryName : ClassId := 436
/-- See below. -/
abbrev Id.x509.AdministrationDomainName : ClassId := 437
/-- See below. -/
abbrev Id.x509.BuiltInStandardAttributes : ClassId := 438
/-- See below. -/
abbrev Id.x509.ORAddress : ClassId := 439
/-- See below. -/
abbrev Id.x509.EDIPartyName : ClassId := 440
/-- See below. -/
abbrev Id.cms.AttributeCertificateV1 : ClassId := 441

/-- The number of classes. -/
abbrev count : Nat := 442

/-- The number of classes without the last ones, which are not sound definitions (see Spec/Package.lean). -/
abbrev size : Nat := 436

/-! ### The classes -/

/-- `Any` (core.py:875-1022) -/
def core.Any : Shape := .any

/-- `Boolean` (core.py:1862-1912) -/
def core.Boolean : Shape := .leaf (.boolean { cls := 0, method := 0, tag := 1 }) []

/-- `Integer` (core.py:1915-1993) -/
def core.Integer : Shape := .leaf (.integer (none) { cls := 0, method := 0, tag := 2 }) []

/-- `BitString` (core.py:2104-2356) -/
def core.BitString : Shape := .leaf (.bits { cls := 0, method := 0, tag := 3 }) []

/-- `OctetBitString` (core.py:2359-2502) -/
def core.OctetBitString : Shape := .leaf (.octetBits { cls := 0, method := 0, tag := 3 }) []

/-- `IntegerBitString` (core.py:2505-2567) -/
def core.IntegerBitString : Shape := .leaf (.intBits { cls := 0, method := 0, tag := 3 }) []

/-- `OctetString` (core.py:2570-2645) -/
def core.OctetString : Shape := .leaf (.octets { cls := 0, method := 0, tag := 4 }) []

/-- `IntegerOctetString` (core.py:2648-2726) -/
def core.IntegerOctetString : Shape := .leaf (.intOctets { cls := 0, method := 0, tag := 4 }) []

/-- `ParsableOctetString` (core.py:2729-2904) -/
def core.ParsableOctetString : Shape := .parsable { cls := 0, method := 0, tag := 4 } false

/-- `ParsableOctetBitString` (core.py:2907-2956) -/
def core.ParsableOctetBitString : Shape := .parsable { cls := 0, method := 0, tag := 3 } true

/-- `Null` (core.py:2959-2987) -/
def core.Null : Shape := .leaf (.null { cls := 0, method := 0, tag := 5, contents := some [] }) []

/-- `ObjectIdentifier` (core.py:2990-3212) -/
def core.ObjectIdentifier : Shape := .leaf (.oid ⟨none, none, false⟩ { cls := 0, method := 0, tag := 6 }) []

/-- `Enumerated` (core.py:3239-3304) -/
def core.Enumerated : Shape := .leaf (.enumerated (none) { cls := 0, method := 0, tag := 10 }) []

/-- `UTF8String` (core.py:3307-3313) -/
def core.UTF8String (K : Codecs) : Shape := .leaf (.chars K.utf8 12 { cls := 0, method := 0, tag := 12 }) []

/-- `RelativeOid` (core.py:3316-3322) -/
def core.RelativeOid : Shape := .leaf (.oid ⟨none, none, false⟩ { cls := 0, method := 0, tag := 13 }) []

/-- `Sequence` (core.py:3325-4163) -/
def core.Sequence : Shape := .seq { cls := 0, method := 1, tag := 16 } [] false [] (none)

/-- `SequenceOf` (core.py:4166-4619) -/
def core.SequenceOf : Shape := .seqOf { cls := 0, method := 1, tag := 16 } [] false (none)

/-- `Set` (core.py:4622-4806) -/
def core.Set : Shape := .seq { cls := 0, method := 1, tag := 17 } [] true [] (none)

/-- `SetOf` (core.py:4809-4840) -/
def core.SetOf : Shape := .seqOf { cls := 0, method := 1, tag := 17 } [] true (none)

/-- `EmbeddedPdv` (core.py:4843-4848) -/
def core.EmbeddedPdv : Shape := .seq { cls := 0, method := 1, tag := 11 } [] false [] (none)

/-- `NumericString` (core.py:4851-4857) -/
def core.NumericString (K : Codecs) : Shape := .leaf (.chars K.latin1 18 { cls := 0, method := 0, tag := 18 }) []

/-- `PrintableString` (core.py:4860-4866) -/
def core.PrintableString (K : Codecs) : Shape := .leaf (.chars K.latin1 19 { cls := 0, method := 0, tag := 19 }) []

/-- `TeletexString` (core.py:4869-4875) -/
def core.TeletexString (K : Codecs) : Shape := .leaf (.chars K.teletex 20 { cls := 0, method := 0, tag := 20 }) []

/-- `VideotexString` (core.py:4878-4883) -/
def core.VideotexString : Shape := .leaf (.octets { cls := 0, method := 0, tag := 21 }) []

/-- `IA5String` (core.py:4886-4892) -/
def core.IA5String (K : Codecs) : Shape := .leaf (.chars K.ascii 22 { cls := 0, method := 0, tag := 22 }) []

/-- `UTCTime` (core.py:4993-5076) -/
def core.UTCTime (K : Codecs) : Shape := .leaf (.chars K.time 23 { cls := 0, method := 0, tag := 23 }) []

/-- `GeneralizedTime` (core.py:5079-5171) -/
def core.GeneralizedTime (K : Codecs) : Shape := .leaf (.chars K.time 24 { cls := 0, method := 0, tag := 24 }) []

/-- `GraphicString` (core.py:5174-5181) -/
def core.GraphicString (K : Codecs) : Shape := .leaf (.chars K.latin1 25 { cls := 0, method := 0, tag := 25 }) []

/-- `VisibleString` (core.py:5184-5190) -/
def core.VisibleString (K : Codecs) : Shape := .leaf (.chars K.latin1 26 { cls := 0, method := 0, tag := 26 }) []

/-- `GeneralString` (core.py:5193-5200) -/
def core.GeneralString (K : Codecs) : Shape := .leaf (.chars K.latin1 27 { cls := 0, method := 0, tag := 27 }) []

/-- `UniversalString` (core.py:5203-5209) -/
def core.UniversalString (K : Codecs) : Shape := .leaf (.chars K.ucs4 28 { cls := 0, method := 0, tag := 28 }) []

/-- `CharacterString` (core.py:5212-5219) -/
def core.CharacterString (K : Codecs) : Shape := .leaf (.chars K.latin1 29 { cls := 0, method := 0, tag := 29 }) []

/-- `BMPString` (core.py:5222-5228) -/
def core.BMPString (K : Codecs) : Shape := .leaf (.chars K.ucs2 30 { cls := 0, method := 0, tag := 30 }) []

/-- `AlgorithmIdentifier` (algos.py:43-47) -/
def algos.AlgorithmIdentifier : Shape := .seq { cls := 0, method := 1, tag := 16 } [] false [
    ⟨"algorithm", Id.core.ObjectIdentifier, {}⟩,
    ⟨"parameters", Id.core.Any, { optional := true }⟩] (none)

/-- `HmacAlgorithmId` (algos.py:107-121) -/
def algos.HmacAlgorithmId : Shape := .leaf (.oid ⟨some [("1.3.14.3.2.10".toList, "des_mac".toList), ("1.2.840.113549.2.7".toList, "sha1".toList),
    ("1.2.840.113549.2.8".toList, "sha224".toList), ("1.2.840.113549.2.9".toList, "sha256".toList), ("1.2.840.113549.2.10".toList, "sha384".toList),
    ("1.2.840.113549.2.11".toList, "sha512".toList), ("1.2.840.113549.2.12".toList, "sha512_224".toList), ("1.2.840.113549.2.13".toList,
    "sha512_256".toList), ("2.16.840.1.101.3.4.2.13".toList, "sha3_224".toList), ("2.16.840.1.101.3.4.2.14".toList, "sha3_256".toList),
    ("2.16.840.1.101.3.4.2.15".toList, "sha3_384".toList), ("2.16.840.1.101.3.4.2.16".toList, "sha3_512".toList)], none, false⟩
    { cls := 0, method := 0, tag := 6 }) []

/-- `HmacAlgorithm` (algos.py:124-128) -/
def algos.HmacAlgorithm : Shape := .seq { cls := 0, method := 1, tag := 16 } [] false [
    ⟨"algorithm", Id.algos.HmacAlgorithmId, {}⟩,
    ⟨"parameters", Id.core.Any, { optional := true }⟩] (none)

/-- `DigestAlgorithmId` (algos.py:131-150) -/
def algos.DigestAlgorithmId : Shape := .leaf (.oid ⟨some [("1.2.840.113549.2.2".toList, "md2".toList), ("1.2.840.113549.2.5".toList, "md5".toList),
    ("1.3.14.3.2.26".toList, "sha1".toList), ("2.16.840.1.101.3.4.2.4".toList, "sha224".toList), ("2.16.840.1.101.3.4.2.1".toList, "sha256".toList),
    ("2.16.840.1.101.3.4.2.2".toList, "sha384".toList), ("2.16.840.1.101.3.4.2.3".toList, "sha512".toList), ("2.16.840.1.101.3.4.2.5".toList,
    "sha512_224".toList), ("2.16.840.1.101.3.4.2.6".toList, "sha512_256".toList), ("2.16.840.1.101.3.4.2.7".toList, "sha3_224".toList),
    ("2.16.840.1.101.3.4.2.8".toList, "sha3_256".toList), ("2.16.840.1.101.3.4.2.9".toList, "sha3_384".toList), ("2.16.840.1.101.3.4.2.10".toList,
    "sha3_512".toList), ("2.16.840.1.101.3.4.2.11".toList, "shake128".toList), ("2.16.840.1.101.3.4.2.12".toList, "shake256".toList),
    ("2.16.840.1.101.3.4.2.17".toList, "shake128_len".toList), ("2.16.840.1.101.3.4.2.18".toList, "shake256_len".toList)], none, false⟩
    { cls := 0, method := 0, tag := 6 }) []

/-- `DigestAlgorithm` (algos.py:153-157) -/
def algos.DigestAlgorithm : Shape := .seq { cls := 0, method := 1, tag := 16 } [] false [
    ⟨"algorithm", Id.algos.DigestAlgorithmId, {}⟩,
    ⟨"parameters", Id.core.Any, { optional := true }⟩] (some ⟨0, none, 1, [("1.2.840.113549.1.1.1".toList, .value Id.core.Null),
      ("1.2.840.113549.1.1.11".toList, .value Id.core.Null), ("1.2.840.113549.1.1.12".toList, .value Id.core.Null),
      ("1.2.840.113549.1.1.13".toList, .value Id.core.Null), ("1.2.840.113549.1.1.14".toList, .value Id.core.Null), ("sha1".toList, .value
      Id.core.Null), ("sha256".toList, .value Id.core.Null), ("sha384".toList, .value Id.core.Null), ("sha512".toList, .value Id.core.Null),
      ("sha224".toList, .value Id.core.Null)], .ok .same⟩)

/-- `DigestInfo` (algos.py:161-165) -/
def algos.DigestInfo : Shape := .seq { cls := 0, method := 1, tag := 16 } [] false [
    ⟨"digest_algorithm", Id.algos.DigestAlgorithm, {}⟩,
    ⟨"digest", Id.core.OctetString, {}⟩] (none)

/-- `MaskGenAlgorithmId` (algos.py:168-171) -/
def algos.MaskGenAlgorithmId : Shape := .leaf (.oid ⟨some [("1.2.840.113549.1.1.8".toList, "mgf1".toList)], none, false⟩
    { cls := 0, method := 0, tag := 6 }) []

/-- `MaskGenAlgorithm` (algos.py:174-183) -/
def algos.MaskGenAlgorithm : Shape := .seq { cls := 0, method := 1, tag := 16 } [] false [
    ⟨"algorithm", Id.algos.MaskGenAlgorithmId, {}⟩,
    ⟨"parameters", Id.core.Any, { optional := true }⟩] (some ⟨0, none, 1, [("mgf1".toList, .value Id.algos.DigestAlgorithm)], .ok .same⟩)

/-- `TrailerField` (algos.py:186-189) -/
def algos.TrailerField : Shape := .leaf (.integer (some [(1, "trailer_field_bc")]) { cls := 0, method := 0, tag := 2 }) []

/-- `RSASSAPSSParams` (algos.py:192-229) -/
def algos.RSASSAPSSParams : Shape := .seq { cls := 0, method := 1, tag := 16 } [] false [
    ⟨"hash_algorithm", Id.algos.DigestAlgorithm, { explicit := [(2, 0)], default := some (.dict [("algorithm", .scalar (.str "sha1".toList))]) }⟩,
    ⟨"mask_gen_algorithm", Id.algos.MaskGenAlgorithm,
      { explicit := [(2, 1)], default := some (.dict [("algorithm", .scalar (.str "mgf1".toList)), ("parameters", .dict [("algorithm", .scalar (.str "sha1".toList))])]) }⟩,
    ⟨"salt_length", Id.core.Integer, { explicit := [(2, 2)], default := some (.scalar (.int 20)) }⟩,
    ⟨"trailer_field", Id.algos.TrailerField, { explicit := [(2, 3)], default := some (.scalar (.str "trailer_field_bc".toList)) }⟩] (none)

/-- `SignedDigestAlgorithmId` (algos.py:232-336) -/
def algos.SignedDigestAlgorithmId : Shape := .leaf (.oid ⟨some [("1.3.14.3.2.3".toList, "md5_rsa".toList), ("1.3.14.3.2.29".toList,
    "sha1_rsa".toList), ("1.3.14.7.2.3.1".toList, "md2_rsa".toList), ("1.2.840.113549.1.1.2".toList, "md2_rsa".toList),
    ("1.2.840.113549.1.1.4".toList, "md5_rsa".toList), ("1.2.840.113549.1.1.5".toList, "sha1_rsa".toList), ("1.2.840.113549.1.1.14".toList,
    "sha224_rsa".toList), ("1.2.840.113549.1.1.11".toList, "sha256_rsa".toList), ("1.2.840.113549.1.1.12".toList, "sha384_rsa".toList),
    ("1.2.840.113549.1.1.13".toList, "sha512_rsa".toList), ("1.2.840.113549.1.1.10".toList, "rsassa_pss".toList), ("1.2.840.10040.4.3".toList,
    "sha1_dsa".toList), ("1.3.14.3.2.13".toList, "sha1_dsa".toList), ("1.3.14.3.2.27".toList, "sha1_dsa".toList), ("2.16.840.1.101.3.4.3.1".toList,
    "sha224_dsa".toList), ("2.16.840.1.101.3.4.3.2".toList, "sha256_dsa".toList), ("2.16.840.1.101.3.4.3.3".toList, "sha384_dsa".toList),
    ("2.16.840.1.101.3.4.3.4".toList, "sha512_dsa".toList), ("1.2.840.10045.4.1".toList, "sha1_ecdsa".toList), ("1.2.840.10045.4.3.1".toList,
    "sha224_ecdsa".toList), ("1.2.840.10045.4.3.2".toList, "sha256_ecdsa".toList), ("1.2.840.10045.4.3.3".toList, "sha384_ecdsa".toList),
    ("1.2.840.10045.4.3.4".toList, "sha512_ecdsa".toList), ("2.16.840.1.101.3.4.3.5".toList, "sha3_224_dsa".toList), ("2.16.840.1.101.3.4.3.6".toList,
    "sha3_256_dsa".toList), ("2.16.840.1.101.3.4.3.7".toList, "sha3_384_dsa".toList), ("2.16.840.1.101.3.4.3.8".toList, "sha3_512_dsa".toList),
    ("2.16.840.1.101.3.4.3.9".toList, "sha3_224_ecdsa".toList), ("2.16.840.1.101.3.4.3.10".toList, "sha3_256_ecdsa".toList),
    ("2.16.840.1.101.3.4.3.11".toList, "sha3_384_ecdsa".toList), ("2.16.840.1.101.3.4.3.12".toList, "sha3_512_ecdsa".toList),
    ("2.16.840.1.101.3.4.3.13".toList, "sha3_224_rsa".toList), ("2.16.840.1.101.3.4.3.14".toList, "sha3_256_rsa".toList),
    ("2.16.840.1.101.3.4.3.15".toList, "sha3_384_rsa".toList), ("2.16.840.1.101.3.4.3.16".toList, "sha3_512_rsa".toList),
    ("1.2.840.113549.1.1.1".toList, "rsassa_pkcs1v15".toList), ("1.2.840.10040.4.1".toList, "dsa".toList), ("1.2.840.10045.4".toList, "ecdsa".toList),
    ("1.3.101.112".toList, "ed25519".toList), ("1.3.101.113".toList, "ed448".toList), ("0.4.0.127.0.7.1.1.4.1.1".toList, "sha1_ecdsa_plain".toList),
    ("0.4.0.127.0.7.1.1.4.1.2".toList, "sha224_ecdsa_plain".toList), ("0.4.0.127.0.7.1.1.4.1.3".toList, "sha256_ecdsa_plain".toList),
    ("0.4.0.127.0.7.1.1.4.1.4".toList, "sha384_ecdsa_plain".toList), ("0.4.0.127.0.7.1.1.4.1.5".toList, "sha512_ecdsa_plain".toList),
    ("0.4.0.127.0.7.1.1.4.1.8".toList, "sha3_224_ecdsa_plain".toList), ("0.4.0.127.0.7.1.1.4.1.9".toList, "sha3_256_ecdsa_plain".toList),
    ("0.4.0.127.0.7.1.1.4.1.10".toList, "sha3_384_ecdsa_plain".toList), ("0.4.0.127.0.7.1.1.4.1.11".toList, "sha3_512_ecdsa_plain".toList)], some
    [("dsa".toList, "1.2.840.10040.4.1".toList), ("ecdsa".toList, "1.2.840.10045.4".toList), ("md2_rsa".toList, "1.2.840.113549.1.1.2".toList),
    ("md5_rsa".toList, "1.2.840.113549.1.1.4".toList), ("rsassa_pkcs1v15".toList, "1.2.840.113549.1.1.1".toList), ("rsassa_pss".toList,
    "1.2.840.113549.1.1.10".toList), ("sha1_dsa".toList, "1.2.840.10040.4.3".toList), ("sha1_ecdsa".toList, "1.2.840.10045.4.1".toList),
    ("sha1_rsa".toList, "1.2.840.113549.1.1.5".toList), ("sha224_dsa".toList, "2.16.840.1.101.3.4.3.1".toList), ("sha224_ecdsa".toList,
    "1.2.840.10045.4.3.1".toList), ("sha224_rsa".toList, "1.2.840.113549.1.1.14".toList), ("sha256_dsa".toList, "2.16.840.1.101.3.4.3.2".toList),
    ("sha256_ecdsa".toList, "1.2.840.10045.4.3.2".toList), ("sha256_rsa".toList, "1.2.840.113549.1.1.11".toList), ("sha384_dsa".toList,
    "2.16.840.1.101.3.4.3.3".toList), ("sha384_ecdsa".toList, "1.2.840.10045.4.3.3".toList), ("sha384_rsa".toList, "1.2.840.113549.1.1.12".toList),
    ("sha512_dsa".toList, "2.16.840.1.101.3.4.3.4".toList), ("sha512_ecdsa".toList, "1.2.840.10045.4.3.4".toList), ("sha512_rsa".toList,
    "1.2.840.113549.1.1.13".toList), ("sha3_224_dsa".toList, "2.16.840.1.101.3.4.3.5".toList), ("sha3_256_dsa".toList,
    "2.16.840.1.101.3.4.3.6".toList), ("sha3_384_dsa".toList, "2.16.840.1.101.3.4.3.7".toList), ("sha3_512_dsa".toList,
    "2.16.840.1.101.3.4.3.8".toList), ("sha3_224_ecdsa".toList, "2.16.840.1.101.3.4.3.9".toList), ("sha3_256_ecdsa".toList,
    "2.16.840.1.101.3.4.3.10".toList), ("sha3_384_ecdsa".toList, "2.16.840.1.101.3.4.3.11".toList), ("sha3_512_ecdsa".toList,
    "2.16.840.1.101.3.4.3.12".toList), ("sha3_224_rsa".toList, "2.16.840.1.101.3.4.3.13".toList), ("sha3_256_rsa".toList,
    "2.16.840.1.101.3.4.3.14".toList), ("sha3_384_rsa".toList, "2.16.840.1.101.3.4.3.15".toList), ("sha3_512_rsa".toList,
    "2.16.840.1.101.3.4.3.16".toList), ("ed25519".toList, "1.3.101.112".toList), ("ed448".toList, "1.3.101.113".toList), ("sha1_ecdsa_plain".toList,
    "0.4.0.127.0.7.1.1.4.1.1".toList), ("sha224_ecdsa_plain".toList, "0.4.0.127.0.7.1.1.4.1.2".toList), ("sha256_ecdsa_plain".toList,
    "0.4.0.127.0.7.1.1.4.1.3".toList), ("sha384_ecdsa_plain".toList, "0.4.0.127.0.7.1.1.4.1.4".toList), ("sha512_ecdsa_plain".toList,
    "0.4.0.127.0.7.1.1.4.1.5".toList), ("sha3_224_ecdsa_plain".toList, "0.4.0.127.0.7.1.1.4.1.8".toList), ("sha3_256_ecdsa_plain".toList,
    "0.4.0.127.0.7.1.1.4.1.9".toList), ("sha3_384_ecdsa_plain".toList, "0.4.0.127.0.7.1.1.4.1.10".toList), ("sha3_512_ecdsa_plain".toList,
    "0.4.0.127.0.7.1.1.4.1.11".toList)], false⟩ { cls := 0, method := 0, tag := 6 }) []

/-- `SignedDigestAlgorithm` (algos.py:339-389) -/
def algos.SignedDigestAlgorithm : Shape := .seq { cls := 0, method := 1, tag := 16 } [] false [
    ⟨"algorithm", Id.algos.SignedDigestAlgorithmId, {}⟩,
    ⟨"parameters", Id.core.Any, { optional := true }⟩] (some ⟨0, none, 1, [("rsassa_pss".toList, .value Id.algos.RSASSAPSSParams),
      ("rsassa_pkcs1v15".toList, .value Id.core.Null), ("sha256_rsa".toList, .value Id.core.Null), ("sha384_rsa".toList, .value Id.core.Null),
      ("sha512_rsa".toList, .value Id.core.Null), ("sha224_rsa".toList, .value Id.core.Null), ("1.3.14.3.2.26".toList, .value Id.core.Null),
      ("2.16.840.1.101.3.4.2.1".toList, .value Id.core.Null), ("2.16.840.1.101.3.4.2.2".toList, .value Id.core.Null),
      ("2.16.840.1.101.3.4.2.3".toList, .value Id.core.Null), ("2.16.840.1.101.3.4.2.4".toList, .value Id.core.Null)], .ok .same⟩)

/-- `Pbkdf2Salt` (algos.py:523-527) -/
def algos.Pbkdf2Salt : Shape := .choice [] none [
    ⟨"specified", Id.core.OctetString, {}⟩,
    ⟨"other_source", Id.algos.AlgorithmIdentifier, {}⟩]

/-- `Pbkdf2Params` (algos.py:530-536) -/
def algos.Pbkdf2Params : Shape := .seq { cls := 0, method := 1, tag := 16 } [] false [
    ⟨"salt", Id.algos.Pbkdf2Salt, {}⟩,
    ⟨"iteration_count", Id.core.Integer, {}⟩,
    ⟨"key_length", Id.core.Integer, { optional := true }⟩,
    ⟨"prf", Id.algos.HmacAlgorithm, { default := some (.dict [("algorithm", .scalar (.str "sha1".toList))]) }⟩] (none)

/-- `ScryptParams` (algos.py:539-547) -/
def algos.ScryptParams : Shape := .seq { cls := 0, method := 1, tag := 16 } [] false [
    ⟨"salt", Id.core.OctetString, {}⟩,
    ⟨"cost_parameter", Id.core.Integer, {}⟩,
    ⟨"block_size", Id.core.Integer, {}⟩,
    ⟨"parallelization_parameter", Id.core.Integer, {}⟩,
    ⟨"key_length", Id.core.Integer, { optional := true }⟩] (none)

/-- `KdfAlgorithmId` (algos.py:550-554) -/
def algos.KdfAlgorithmId : Shape := .leaf (.oid ⟨some [("1.2.840.113549.1.5.12".toList, "pbkdf2".toList), ("1.3.6.1.4.1.11591.4.11".toList,
    "scrypt".toList)], none, false⟩ { cls := 0, method := 0, tag := 6 }) []

/-- `KdfAlgorithm` (algos.py:557-566) -/
def algos.KdfAlgorithm : Shape := .seq { cls := 0, method := 1, tag := 16 } [] false [
    ⟨"algorithm", Id.algos.KdfAlgorithmId, {}⟩,
    ⟨"parameters", Id.core.Any, { optional := true }⟩] (some ⟨0, none, 1, [("pbkdf2".toList, .value Id.algos.Pbkdf2Params), ("scrypt".toList, .value
      Id.algos.ScryptParams)], .ok .same⟩)

/-- `DHParameters` (algos.py:569-579) -/
def algos.DHParameters : Shape := .seq { cls := 0, method := 1, tag := 16 } [] false [
    ⟨"p", Id.core.Integer, {}⟩,
    ⟨"g", Id.core.Integer, {}⟩,
    ⟨"private_value_length", Id.core.Integer, { optional := true }⟩] (none)

/-- `KeyExchangeAlgorithmId` (algos.py:582-585) -/
def algos.KeyExchangeAlgorithmId : Shape := .leaf (.oid ⟨some [("1.2.840.113549.1.3.1".toList, "dh".toList)], none, false⟩
    { cls := 0, method := 0, tag := 6 }) []

/-- `KeyExchangeAlgorithm` (algos.py:588-596) -/
def algos.KeyExchangeAlgorithm : Shape := .seq { cls := 0, method := 1, tag := 16 } [] false [
    ⟨"algorithm", Id.algos.KeyExchangeAlgorithmId, {}⟩,
    ⟨"parameters", Id.core.Any, { optional := true }⟩] (some ⟨0, none, 1, [("dh".toList, .value Id.algos.DHParameters)], .ok .same⟩)

/-- `Rc2Params` (algos.py:599-603) -/
def algos.Rc2Params : Shape := .seq { cls := 0, method := 1, tag := 16 } [] false [
    ⟨"rc2_parameter_version", Id.core.Integer, { optional := true }⟩,
    ⟨"iv", Id.core.OctetString, {}⟩] (none)

/-- `Rc5ParamVersion` (algos.py:606-609) -/
def algos.Rc5ParamVersion : Shape := .leaf (.integer (some [(16, "v1-0")]) { cls := 0, method := 0, tag := 2 }) []

/-- `Rc5Params` (algos.py:612-618) -/
def algos.Rc5Params : Shape := .seq { cls := 0, method := 1, tag := 16 } [] false [
    ⟨"version", Id.algos.Rc5ParamVersion, {}⟩,
    ⟨"rounds", Id.core.Integer, {}⟩,
    ⟨"block_size_in_bits", Id.core.Integer, {}⟩,
    ⟨"iv", Id.core.OctetString, { optional := true }⟩] (none)

/-- `Pbes1Params` (algos.py:621-625) -/
def algos.Pbes1Params : Shape := .seq { cls := 0, method := 1, tag := 16 } [] false [
    ⟨"salt", Id.core.OctetString, {}⟩,
    ⟨"iterations", Id.core.Integer, {}⟩] (none)

/-- `CcmParams` (algos.py:628-634) -/
def algos.CcmParams : Shape := .seq { cls := 0, method := 1, tag := 16 } [] false [
    ⟨"aes_nonce", Id.core.OctetString, {}⟩,
    ⟨"aes_icvlen", Id.core.Integer, {}⟩] (none)

/-- `PSourceAlgorithmId` (algos.py:637-640) -/
def algos.PSourceAlgorithmId : Shape := .leaf (.oid ⟨some [("1.2.840.113549.1.1.9".toList, "p_specified".toList)], none, false⟩
    { cls := 0, method := 0, tag := 6 }) []

/-- `PSourceAlgorithm` (algos.py:643-652) -/
def algos.PSourceAlgorithm : Shape := .seq { cls := 0, method := 1, tag := 16 } [] false [
    ⟨"algorithm", Id.algos.PSourceAlgorithmId, {}⟩,
    ⟨"parameters", Id.core.Any, { optional := true }⟩] (some ⟨0, none, 1, [("p_specified".toList, .value Id.core.OctetString)], .ok .same⟩)

/-- `RSAESOAEPParams` (algos.py:655-687) -/
def algos.RSAESOAEPParams : Shape := .seq { cls := 0, method := 1, tag := 16 } [] false [
    ⟨"hash_algorithm", Id.algos.DigestAlgorithm, { explicit := [(2, 0)], default := some (.dict [("algorithm", .scalar (.str "sha1".toList))]) }⟩,
    ⟨"mask_gen_algorithm", Id.algos.MaskGenAlgorithm,
      { explicit := [(2, 1)], default := some (.dict [("algorithm", .scalar (.str "mgf1".toList)), ("parameters", .dict [("algorithm", .scalar (.str "sha1".toList))])]) }⟩,
    ⟨"p_source_algorithm", Id.algos.PSourceAlgorithm,
      { explicit := [(2, 2)], default := some (.dict [("algorithm", .scalar (.str "p_specified".toList)), ("parameters", .scalar (.bytes []))]) }⟩]
      (none)

/-- `DSASignature` (algos.py:690-703) -/
def algos.DSASignature : Shape := .seq { cls := 0, method := 1, tag := 16 } [] false [
    ⟨"r", Id.core.Integer, {}⟩,
    ⟨"s", Id.core.Integer, {}⟩] (none)

/-- `EncryptionAlgorithmId` (algos.py:750-800) -/
def algos.EncryptionAlgorithmId : Shape := .leaf (.oid ⟨some [("1.3.14.3.2.7".toList, "des".toList), ("1.2.840.113549.3.7".toList,
    "tripledes_3key".toList), ("1.2.840.113549.3.2".toList, "rc2".toList), ("1.2.840.113549.3.4".toList, "rc4".toList), ("1.2.840.113549.3.9".toList,
    "rc5".toList), ("2.16.840.1.101.3.4.1.1".toList, "aes128_ecb".toList), ("2.16.840.1.101.3.4.1.2".toList, "aes128_cbc".toList),
    ("2.16.840.1.101.3.4.1.3".toList, "aes128_ofb".toList), ("2.16.840.1.101.3.4.1.4".toList, "aes128_cfb".toList), ("2.16.840.1.101.3.4.1.5".toList,
    "aes128_wrap".toList), ("2.16.840.1.101.3.4.1.6".toList, "aes128_gcm".toList), ("2.16.840.1.101.3.4.1.7".toList, "aes128_ccm".toList),
    ("2.16.840.1.101.3.4.1.8".toList, "aes128_wrap_pad".toList), ("2.16.840.1.101.3.4.1.21".toList, "aes192_ecb".toList),
    ("2.16.840.1.101.3.4.1.22".toList, "aes192_cbc".toList), ("2.16.840.1.101.3.4.1.23".toList, "aes192_ofb".toList),
    ("2.16.840.1.101.3.4.1.24".toList, "aes192_cfb".toList), ("2.16.840.1.101.3.4.1.25".toList, "aes192_wrap".toList),
    ("2.16.840.1.101.3.4.1.26".toList, "aes192_gcm".toList), ("2.16.840.1.101.3.4.1.27".toList, "aes192_ccm".toList),
    ("2.16.840.1.101.3.4.1.28".toList, "aes192_wrap_pad".toList), ("2.16.840.1.101.3.4.1.41".toList, "aes256_ecb".toList),
    ("2.16.840.1.101.3.4.1.42".toList, "aes256_cbc".toList), ("2.16.840.1.101.3.4.1.43".toList, "aes256_ofb".toList),
    ("2.16.840.1.101.3.4.1.44".toList, "aes256_cfb".toList), ("2.16.840.1.101.3.4.1.45".toList, "aes256_wrap".toList),
    ("2.16.840.1.101.3.4.1.46".toList, "aes256_gcm".toList), ("2.16.840.1.101.3.4.1.47".toList, "aes256_ccm".toList),
    ("2.16.840.1.101.3.4.1.48".toList, "aes256_wrap_pad".toList), ("1.2.840.113549.1.5.13".toList, "pbes2".toList), ("1.2.840.113549.1.5.1".toList,
    "pbes1_md2_des".toList), ("1.2.840.113549.1.5.3".toList, "pbes1_md5_des".toList), ("1.2.840.113549.1.5.4".toList, "pbes1_md2_rc2".toList),
    ("1.2.840.113549.1.5.6".toList, "pbes1_md5_rc2".toList), ("1.2.840.113549.1.5.10".toList, "pbes1_sha1_des".toList),
    ("1.2.840.113549.1.5.11".toList, "pbes1_sha1_rc2".toList), ("1.2.840.113549.1.12.1.1".toList, "pkcs12_sha1_rc4_128".toList),
    ("1.2.840.113549.1.12.1.2".toList, "pkcs12_sha1_rc4_40".toList), ("1.2.840.113549.1.12.1.3".toList, "pkcs12_sha1_tripledes_3key".toList),
    ("1.2.840.113549.1.12.1.4".toList, "pkcs12_sha1_tripledes_2key".toList), ("1.2.840.113549.1.12.1.5".toList, "pkcs12_sha1_rc2_128".toList),
    ("1.2.840.113549.1.12.1.6".toList, "pkcs12_sha1_rc2_40".toList), ("1.2.840.113549.1.1.1".toList, "rsaes_pkcs1v15".toList),
    ("1.2.840.113549.1.1.7".toList, "rsaes_oaep".toList)], none, false⟩ { cls := 0, method := 0, tag := 6 }) []

/-- `EncryptionAlgorithm` (algos.py:803-841, algos.py:1314) -/
def algos.EncryptionAlgorithm : Shape := .seq { cls := 0, method := 1, tag := 16 } [] false [
    ⟨"algorithm", Id.algos.EncryptionAlgorithmId, {}⟩,
    ⟨"parameters", Id.core.Any, { optional := true }⟩] (some ⟨0, none, 1, [("des".toList, .value Id.core.OctetString), ("tripledes_3key".toList,
      .value Id.core.OctetString), ("rc2".toList, .value Id.algos.Rc2Params), ("rc5".toList, .value Id.algos.Rc5Params), ("aes128_cbc".toList,
      .value Id.core.OctetString), ("aes192_cbc".toList, .value Id.core.OctetString), ("aes256_cbc".toList, .value Id.core.OctetString),
      ("aes128_ofb".toList, .value Id.core.OctetString), ("aes192_ofb".toList, .value Id.core.OctetString), ("aes256_ofb".toList, .value
      Id.core.OctetString), ("aes128_ccm".toList, .value Id.algos.CcmParams), ("aes192_ccm".toList, .value Id.algos.CcmParams),
      ("aes256_ccm".toList, .value Id.algos.CcmParams), ("pbes1_md2_des".toList, .value Id.algos.Pbes1Params), ("pbes1_md5_des".toList, .value
      Id.algos.Pbes1Params), ("pbes1_md2_rc2".toList, .value Id.algos.Pbes1Params), ("pbes1_md5_rc2".toList, .value Id.algos.Pbes1Params),
      ("pbes1_sha1_des".toList, .value Id.algos.Pbes1Params), ("pbes1_sha1_rc2".toList, .value Id.algos.Pbes1Params),
      ("pkcs12_sha1_rc4_128".toList, .value Id.algos.Pbes1Params), ("pkcs12_sha1_rc4_40".toList, .value Id.algos.Pbes1Params),
      ("pkcs12_sha1_tripledes_3key".toList, .value Id.algos.Pbes1Params), ("pkcs12_sha1_tripledes_2key".toList, .value Id.algos.Pbes1Params),
      ("pkcs12_sha1_rc2_128".toList, .value Id.algos.Pbes1Params), ("pkcs12_sha1_rc2_40".toList, .value Id.algos.Pbes1Params),
      ("rsaes_oaep".toList, .value Id.algos.RSAESOAEPParams), ("pbes2".toList, .value Id.algos.Pbes2Params), ("rsaes_pkcs1v15".toList, .value
      Id.core.Null), ("1.2.840.113549.1.1.11".toList, .value Id.core.Null), ("1.2.840.113549.1.1.12".toList, .value Id.core.Null),
      ("1.2.840.113549.1.1.13".toList, .value Id.core.Null), ("1.2.840.113549.1.1.14".toList, .value Id.core.Null), ("1.3.14.3.2.26".toList,
      .value Id.core.Null), ("2.16.840.1.101.3.4.2.1".toList, .value Id.core.Null), ("2.16.840.1.101.3.4.2.2".toList, .value Id.core.Null),
      ("2.16.840.1.101.3.4.2.3".toList, .value Id.core.Null), ("2.16.840.1.101.3.4.2.4".toList, .value Id.core.Null)], .ok .same⟩)

/-- `Pbes2Params` (algos.py:1282-1286) -/
def algos.Pbes2Params : Shape := .seq { cls := 0, method := 1, tag := 16 } [] false [
    ⟨"key_derivation_func", Id.algos.KdfAlgorithm, {}⟩,
    ⟨"encryption_scheme", Id.algos.EncryptionAlgorithm, {}⟩] (none)

/-- `Pbmac1Params` (algos.py:1289-1293) -/
def algos.Pbmac1Params : Shape := .seq { cls := 0, method := 1, tag := 16 } [] false [
    ⟨"key_derivation_func", Id.algos.KdfAlgorithm, {}⟩,
    ⟨"message_auth_scheme", Id.algos.HmacAlgorithm, {}⟩] (none)

/-- `Pkcs5MacId` (algos.py:1296-1299) -/
def algos.Pkcs5MacId : Shape := .leaf (.oid ⟨some [("1.2.840.113549.1.5.14".toList, "pbmac1".toList)], none, false⟩
    { cls := 0, method := 0, tag := 6 }) []

/-- `Pkcs5MacAlgorithm` (algos.py:1302-1311) -/
def algos.Pkcs5MacAlgorithm : Shape := .seq { cls := 0, method := 1, tag := 16 } [] false [
    ⟨"algorithm", Id.algos.Pkcs5MacId, {}⟩,
    ⟨"parameters", Id.core.Any, {}⟩] (some ⟨0, none, 1, [("pbmac1".toList, .value Id.algos.Pbmac1Params)], .ok .same⟩)

/-- `AnyAlgorithmId` (algos.py:1317-1318) -/
def algos.AnyAlgorithmId : Shape := .leaf (.oid ⟨some [("1.3.14.3.2.7".toList, "des".toList), ("1.2.840.113549.3.7".toList, "tripledes_3key".toList),
    ("1.2.840.113549.3.2".toList, "rc2".toList), ("1.2.840.113549.3.4".toList, "rc4".toList), ("1.2.840.113549.3.9".toList, "rc5".toList),
    ("2.16.840.1.101.3.4.1.1".toList, "aes128_ecb".toList), ("2.16.840.1.101.3.4.1.2".toList, "aes128_cbc".toList), ("2.16.840.1.101.3.4.1.3".toList,
    "aes128_ofb".toList), ("2.16.840.1.101.3.4.1.4".toList, "aes128_cfb".toList), ("2.16.840.1.101.3.4.1.5".toList, "aes128_wrap".toList),
    ("2.16.840.1.101.3.4.1.6".toList, "aes128_gcm".toList), ("2.16.840.1.101.3.4.1.7".toList, "aes128_ccm".toList), ("2.16.840.1.101.3.4.1.8".toList,
    "aes128_wrap_pad".toList), ("2.16.840.1.101.3.4.1.21".toList, "aes192_ecb".toList), ("2.16.840.1.101.3.4.1.22".toList, "aes192_cbc".toList),
    ("2.16.840.1.101.3.4.1.23".toList, "aes192_ofb".toList), ("2.16.840.1.101.3.4.1.24".toList, "aes192_cfb".toList),
    ("2.16.840.1.101.3.4.1.25".toList, "aes192_wrap".toList), ("2.16.840.1.101.3.4.1.26".toList, "aes192_gcm".toList),
    ("2.16.840.1.101.3.4.1.27".toList, "aes192_ccm".toList), ("2.16.840.1.101.3.4.1.28".toList, "aes192_wrap_pad".toList),
    ("2.16.840.1.101.3.4.1.41".toList, "aes256_ecb".toList), ("2.16.840.1.101.3.4.1.42".toList, "aes256_cbc".toList),
    ("2.16.840.1.101.3.4.1.43".toList, "aes256_ofb".toList), ("2.16.840.1.101.3.4.1.44".toList, "aes256_cfb".toList),
    ("2.16.840.1.101.3.4.1.45".toList, "aes256_wrap".toList), ("2.16.840.1.101.3.4.1.46".toList, "aes256_gcm".toList),
    ("2.16.840.1.101.3.4.1.47".toList, "aes256_ccm".toList), ("2.16.840.1.101.3.4.1.48".toList, "aes256_wrap_pad".toList),
    ("1.2.840.113549.1.5.13".toList, "pbes2".toList), ("1.2.840.113549.1.5.1".toList, "pbes1_md2_des".toList), ("1.2.840.113549.1.5.3".toList,
    "pbes1_md5_des".toList), ("1.2.840.113549.1.5.4".toList, "pbes1_md2_rc2".toList), ("1.2.840.113549.1.5.6".toList, "pbes1_md5_rc2".toList),
    ("1.2.840.113549.1.5.10".toList, "pbes1_sha1_des".toList), ("1.2.840.113549.1.5.11".toList, "pbes1_sha1_rc2".toList),
    ("1.2.840.113549.1.12.1.1".toList, "pkcs12_sha1_rc4_128".toList), ("1.2.840.113549.1.12.1.2".toList, "pkcs12_sha1_rc4_40".toList),
    ("1.2.840.113549.1.12.1.3".toList, "pkcs12_sha1_tripledes_3key".toList), ("1.2.840.113549.1.12.1.4".toList, "pkcs12_sha1_tripledes_2key".toList),
    ("1.2.840.113549.1.12.1.5".toList, "pkcs12_sha1_rc2_128".toList), ("1.2.840.113549.1.12.1.6".toList, "pkcs12_sha1_rc2_40".toList),
    ("1.2.840.113549.1.1.1".toList, "rsassa_pkcs1v15".toList), ("1.2.840.113549.1.1.7".toList, "rsaes_oaep".toList), ("1.3.14.3.2.3".toList,
    "md5_rsa".toList), ("1.3.14.3.2.29".toList, "sha1_rsa".toList), ("1.3.14.7.2.3.1".toList, "md2_rsa".toList), ("1.2.840.113549.1.1.2".toList,
    "md2_rsa".toList), ("1.2.840.113549.1.1.4".toList, "md5_rsa".toList), ("1.2.840.113549.1.1.5".toList, "sha1_rsa".toList),
    ("1.2.840.113549.1.1.14".toList, "sha224_rsa".toList), ("1.2.840.113549.1.1.11".toList, "sha256_rsa".toList), ("1.2.840.113549.1.1.12".toList,
    "sha384_rsa".toList), ("1.2.840.113549.1.1.13".toList, "sha512_rsa".toList), ("1.2.840.113549.1.1.10".toList, "rsassa_pss".toList),
    ("1.2.840.10040.4.3".toList, "sha1_dsa".toList), ("1.3.14.3.2.13".toList, "sha1_dsa".toList), ("1.3.14.3.2.27".toList, "sha1_dsa".toList),
    ("2.16.840.1.101.3.4.3.1".toList, "sha224_dsa".toList), ("2.16.840.1.101.3.4.3.2".toList, "sha256_dsa".toList), ("2.16.840.1.101.3.4.3.3".toList,
    "sha384_dsa".toList), ("2.16.840.1.101.3.4.3.4".toList, "sha512_dsa".toList), ("1.2.840.10045.4.1".toList, "sha1_ecdsa".toList),
    ("1.2.840.10045.4.3.1".toList, "sha224_ecdsa".toList), ("1.2.840.10045.4.3.2".toList, "sha256_ecdsa".toList), ("1.2.840.10045.4.3.3".toList,
    "sha384_ecdsa".toList), ("1.2.840.10045.4.3.4".toList, "sha512_ecdsa".toList), ("2.16.840.1.101.3.4.3.5".toList, "sha3_224_dsa".toList),
    ("2.16.840.1.101.3.4.3.6".toList, "sha3_256_dsa".toList), ("2.16.840.1.101.3.4.3.7".toList, "sha3_384_dsa".toList),
    ("2.16.840.1.101.3.4.3.8".toList, "sha3_512_dsa".toList), ("2.16.840.1.101.3.4.3.9".toList, "sha3_224_ecdsa".toList),
    ("2.16.840.1.101.3.4.3.10".toList, "sha3_256_ecdsa".toList), ("2.16.840.1.101.3.4.3.11".toList, "sha3_384_ecdsa".toList),
    ("2.16.840.1.101.3.4.3.12".toList, "sha3_512_ecdsa".toList), ("2.16.840.1.101.3.4.3.13".toList, "sha3_224_rsa".toList),
    ("2.16.840.1.101.3.4.3.14".toList, "sha3_256_rsa".toList), ("2.16.840.1.101.3.4.3.15".toList, "sha3_384_rsa".toList),
    ("2.16.840.1.101.3.4.3.16".toList, "sha3_512_rsa".toList), ("1.2.840.10040.4.1".toList, "dsa".toList), ("1.2.840.10045.4".toList, "ecdsa".toList),
    ("1.3.101.112".toList, "ed25519".toList), ("1.3.101.113".toList, "ed448".toList), ("0.4.0.127.0.7.1.1.4.1.1".toList, "sha1_ecdsa_plain".toList),
    ("0.4.0.127.0.7.1.1.4.1.2".toList, "sha224_ecdsa_plain".toList), ("0.4.0.127.0.7.1.1.4.1.3".toList, "sha256_ecdsa_plain".toList),
    ("0.4.0.127.0.7.1.1.4.1.4".toList, "sha384_ecdsa_plain".toList), ("0.4.0.127.0.7.1.1.4.1.5".toList, "sha512_ecdsa_plain".toList),
    ("0.4.0.127.0.7.1.1.4.1.8".toList, "sha3_224_ecdsa_plain".toList), ("0.4.0.127.0.7.1.1.4.1.9".toList, "sha3_256_ecdsa_plain".toList),
    ("0.4.0.127.0.7.1.1.4.1.10".toList, "sha3_384_ecdsa_plain".toList), ("0.4.0.127.0.7.1.1.4.1.11".toList, "sha3_512_ecdsa_plain".toList),
    ("1.2.840.113549.2.2".toList, "md2".toList), ("1.2.840.113549.2.5".toList, "md5".toList), ("1.3.14.3.2.26".toList, "sha1".toList),
    ("2.16.840.1.101.3.4.2.4".toList, "sha224".toList), ("2.16.840.1.101.3.4.2.1".toList, "sha256".toList), ("2.16.840.1.101.3.4.2.2".toList,
    "sha384".toList), ("2.16.840.1.101.3.4.2.3".toList, "sha512".toList), ("2.16.840.1.101.3.4.2.5".toList, "sha512_224".toList),
    ("2.16.840.1.101.3.4.2.6".toList, "sha512_256".toList), ("2.16.840.1.101.3.4.2.7".toList, "sha3_224".toList), ("2.16.840.1.101.3.4.2.8".toList,
    "sha3_256".toList), ("2.16.840.1.101.3.4.2.9".toList, "sha3_384".toList), ("2.16.840.1.101.3.4.2.10".toList, "sha3_512".toList),
    ("2.16.840.1.101.3.4.2.11".toList, "shake128".toList), ("2.16.840.1.101.3.4.2.12".toList, "shake256".toList), ("2.16.840.1.101.3.4.2.17".toList,
    "shake128_len".toList), ("2.16.840.1.101.3.4.2.18".toList, "shake256_len".toList)], none, true⟩ { cls := 0, method := 0, tag := 6 }) []

/-- `AnyAlgorithmIdentifier` (algos.py:1327-1334) -/
def algos.AnyAlgorithmIdentifier : Shape := .seq { cls := 0, method := 1, tag := 16 } [] false [
    ⟨"algorithm", Id.algos.AnyAlgorithmId, {}⟩,
    ⟨"parameters", Id.core.Any, { optional := true }⟩] (some ⟨0, none, 1, [("des".toList, .value Id.core.OctetString), ("tripledes_3key".toList,
      .value Id.core.OctetString), ("rc2".toList, .value Id.algos.Rc2Params), ("rc5".toList, .value Id.algos.Rc5Params), ("aes128_cbc".toList,
      .value Id.core.OctetString), ("aes192_cbc".toList, .value Id.core.OctetString), ("aes256_cbc".toList, .value Id.core.OctetString),
      ("aes128_ofb".toList, .value Id.core.OctetString), ("aes192_ofb".toList, .value Id.core.OctetString), ("aes256_ofb".toList, .value
      Id.core.OctetString), ("aes128_ccm".toList, .value Id.algos.CcmParams), ("aes192_ccm".toList, .value Id.algos.CcmParams),
      ("aes256_ccm".toList, .value Id.algos.CcmParams), ("pbes1_md2_des".toList, .value Id.algos.Pbes1Params), ("pbes1_md5_des".toList, .value
      Id.algos.Pbes1Params), ("pbes1_md2_rc2".toList, .value Id.algos.Pbes1Params), ("pbes1_md5_rc2".toList, .value Id.algos.Pbes1Params),
      ("pbes1_sha1_des".toList, .value Id.algos.Pbes1Params), ("pbes1_sha1_rc2".toList, .value Id.algos.Pbes1Params),
      ("pkcs12_sha1_rc4_128".toList, .value Id.algos.Pbes1Params), ("pkcs12_sha1_rc4_40".toList, .value Id.algos.Pbes1Params),
      ("pkcs12_sha1_tripledes_3key".toList, .value Id.algos.Pbes1Params), ("pkcs12_sha1_tripledes_2key".toList, .value Id.algos.Pbes1Params),
      ("pkcs12_sha1_rc2_128".toList, .value Id.algos.Pbes1Params), ("pkcs12_sha1_rc2_40".toList, .value Id.algos.Pbes1Params),
      ("rsaes_oaep".toList, .value Id.algos.RSAESOAEPParams), ("pbes2".toList, .value Id.algos.Pbes2Params), ("rsassa_pss".toList, .value
      Id.algos.RSASSAPSSParams), ("rsassa_pkcs1v15".toList, .value Id.core.Null), ("sha256_rsa".toList, .value Id.core.Null),
      ("sha384_rsa".toList, .value Id.core.Null), ("sha512_rsa".toList, .value Id.core.Null), ("sha224_rsa".toList, .value Id.core.Null),
      ("sha1".toList, .value Id.core.Null), ("sha256".toList, .value Id.core.Null), ("sha384".toList, .value Id.core.Null), ("sha512".toList,
      .value Id.core.Null), ("sha224".toList, .value Id.core.Null)], .ok .same⟩)

/-- `OtherPrimeInfo` (keys.py:45-54) -/
def keys.OtherPrimeInfo : Shape := .seq { cls := 0, method := 1, tag := 16 } [] false [
    ⟨"prime", Id.core.Integer, {}⟩,
    ⟨"exponent", Id.core.Integer, {}⟩,
    ⟨"coefficient", Id.core.Integer, {}⟩] (none)

/-- `OtherPrimeInfos` (keys.py:57-62) -/
def keys.OtherPrimeInfos : Shape := .seqOf { cls := 0, method := 1, tag := 16 } [] false (some Id.keys.OtherPrimeInfo)

/-- `RSAPrivateKeyVersion` (keys.py:65-74) -/
def keys.RSAPrivateKeyVersion : Shape := .leaf (.integer (some [(0, "two-prime"), (1, "multi")]) { cls := 0, method := 0, tag := 2 }) []

/-- `RSAPrivateKey` (keys.py:77-93) -/
def keys.RSAPrivateKey : Shape := .seq { cls := 0, method := 1, tag := 16 } [] false [
    ⟨"version", Id.keys.RSAPrivateKeyVersion, {}⟩,
    ⟨"modulus", Id.core.Integer, {}⟩,
    ⟨"public_exponent", Id.core.Integer, {}⟩,
    ⟨"private_exponent", Id.core.Integer, {}⟩,
    ⟨"prime1", Id.core.Integer, {}⟩,
    ⟨"prime2", Id.core.Integer, {}⟩,
    ⟨"exponent1", Id.core.Integer, {}⟩,
    ⟨"exponent2", Id.core.Integer, {}⟩,
    ⟨"coefficient", Id.core.Integer, {}⟩,
    ⟨"other_prime_infos", Id.keys.OtherPrimeInfos, { optional := true }⟩] (none)

/-- `RSAPublicKey` (keys.py:96-104) -/
def keys.RSAPublicKey : Shape := .seq { cls := 0, method := 1, tag := 16 } [] false [
    ⟨"modulus", Id.core.Integer, {}⟩,
    ⟨"public_exponent", Id.core.Integer, {}⟩] (none)

/-- `DSAPrivateKey` (keys.py:107-124) -/
def keys.DSAPrivateKey : Shape := .seq { cls := 0, method := 1, tag := 16 } [] false [
    ⟨"version", Id.core.Integer, {}⟩,
    ⟨"p", Id.core.Integer, {}⟩,
    ⟨"q", Id.core.Integer, {}⟩,
    ⟨"g", Id.core.Integer, {}⟩,
    ⟨"public_key", Id.core.Integer, {}⟩,
    ⟨"private_key", Id.core.Integer, {}⟩] (none)

/-- `ECPoint` (keys.py:197-197) -/
def keys.ECPoint : Shape := .leaf (.octets { cls := 0, method := 0, tag := 4 }) []

/-- `ECPointBitString` (keys.py:202-202) -/
def keys.ECPointBitString : Shape := .leaf (.octetBits { cls := 0, method := 0, tag := 3 }) []

/-- `SpecifiedECDomainVersion` (keys.py:207-215) -/
def keys.SpecifiedECDomainVersion : Shape := .leaf (.integer (some [(1, "ecdpVer1"), (2, "ecdpVer2"), (3, "ecdpVer3")])
    { cls := 0, method := 0, tag := 2 }) []

/-- `FieldType` (keys.py:218-227) -/
def keys.FieldType : Shape := .leaf (.oid ⟨some [("1.2.840.10045.1.1".toList, "prime_field".toList), ("1.2.840.10045.1.2".toList,
    "characteristic_two_field".toList)], none, false⟩ { cls := 0, method := 0, tag := 6 }) []

/-- `CharacteristicTwoBasis` (keys.py:230-240) -/
def keys.CharacteristicTwoBasis : Shape := .leaf (.oid ⟨some [("1.2.840.10045.1.2.1.1".toList, "gn_basis".toList), ("1.2.840.10045.1.2.1.2".toList,
    "tp_basis".toList), ("1.2.840.10045.1.2.1.3".toList, "pp_basis".toList)], none, false⟩ { cls := 0, method := 0, tag := 6 }) []

/-- `Pentanomial` (keys.py:243-252) -/
def keys.Pentanomial : Shape := .seq { cls := 0, method := 1, tag := 16 } [] false [
    ⟨"k1", Id.core.Integer, {}⟩,
    ⟨"k2", Id.core.Integer, {}⟩,
    ⟨"k3", Id.core.Integer, {}⟩] (none)

/-- `CharacteristicTwo` (keys.py:255-272) -/
def keys.CharacteristicTwo : Shape := .seq { cls := 0, method := 1, tag := 16 } [] false [
    ⟨"m", Id.core.Integer, {}⟩,
    ⟨"basis", Id.keys.CharacteristicTwoBasis, {}⟩,
    ⟨"parameters", Id.core.Any, {}⟩] (some ⟨1, none, 2, [("gn_basis".toList, .value Id.core.Null), ("tp_basis".toList, .value Id.core.Integer),
      ("pp_basis".toList, .value Id.keys.Pentanomial)], .ok .same⟩)

/-- `FieldID` (keys.py:275-289) -/
def keys.FieldID : Shape := .seq { cls := 0, method := 1, tag := 16 } [] false [
    ⟨"field_type", Id.keys.FieldType, {}⟩,
    ⟨"parameters", Id.core.Any, {}⟩] (some ⟨0, none, 1, [("prime_field".toList, .value Id.core.Integer), ("characteristic_two_field".toList, .value
      Id.keys.CharacteristicTwo)], .ok .same⟩)

/-- `Curve` (keys.py:292-301) -/
def keys.Curve : Shape := .seq { cls := 0, method := 1, tag := 16 } [] false [
    ⟨"a", Id.core.OctetString, {}⟩,
    ⟨"b", Id.core.OctetString, {}⟩,
    ⟨"seed", Id.core.OctetBitString, { optional := true }⟩] (none)

/-- `SpecifiedECDomain` (keys.py:304-317) -/
def keys.SpecifiedECDomain : Shape := .seq { cls := 0, method := 1, tag := 16 } [] false [
    ⟨"version", Id.keys.SpecifiedECDomainVersion, {}⟩,
    ⟨"field_id", Id.keys.FieldID, {}⟩,
    ⟨"curve", Id.keys.Curve, {}⟩,
    ⟨"base", Id.keys.ECPoint, {}⟩,
    ⟨"order", Id.core.Integer, {}⟩,
    ⟨"cofactor", Id.core.Integer, { optional := true }⟩,
    ⟨"hash", Id.algos.DigestAlgorithm, { optional := true }⟩] (none)

/-- `NamedCurve` (keys.py:320-489) -/
def keys.NamedCurve : Shape := .leaf (.oid ⟨some [("1.2.840.10045.3.0.1".toList, "c2pnb163v1".toList), ("1.2.840.10045.3.0.2".toList,
    "c2pnb163v2".toList), ("1.2.840.10045.3.0.3".toList, "c2pnb163v3".toList), ("1.2.840.10045.3.0.4".toList, "c2pnb176w1".toList),
    ("1.2.840.10045.3.0.5".toList, "c2tnb191v1".toList), ("1.2.840.10045.3.0.6".toList, "c2tnb191v2".toList), ("1.2.840.10045.3.0.7".toList,
    "c2tnb191v3".toList), ("1.2.840.10045.3.0.8".toList, "c2onb191v4".toList), ("1.2.840.10045.3.0.9".toList, "c2onb191v5".toList),
    ("1.2.840.10045.3.0.10".toList, "c2pnb208w1".toList), ("1.2.840.10045.3.0.11".toList, "c2tnb239v1".toList), ("1.2.840.10045.3.0.12".toList,
    "c2tnb239v2".toList), ("1.2.840.10045.3.0.13".toList, "c2tnb239v3".toList), ("1.2.840.10045.3.0.14".toList, "c2onb239v4".toList),
    ("1.2.840.10045.3.0.15".toList, "c2onb239v5".toList), ("1.2.840.10045.3.0.16".toList, "c2pnb272w1".toList), ("1.2.840.10045.3.0.17".toList,
    "c2pnb304w1".toList), ("1.2.840.10045.3.0.18".toList, "c2tnb359v1".toList), ("1.2.840.10045.3.0.19".toList, "c2pnb368w1".toList),
    ("1.2.840.10045.3.0.20".toList, "c2tnb431r1".toList), ("1.2.840.10045.3.1.2".toList, "prime192v2".toList), ("1.2.840.10045.3.1.3".toList,
    "prime192v3".toList), ("1.2.840.10045.3.1.4".toList, "prime239v1".toList), ("1.2.840.10045.3.1.5".toList, "prime239v2".toList),
    ("1.2.840.10045.3.1.6".toList, "prime239v3".toList), ("1.2.840.10045.3.1.1".toList, "secp192r1".toList), ("1.2.840.10045.3.1.7".toList,
    "secp256r1".toList), ("1.3.132.0.1".toList, "sect163k1".toList), ("1.3.132.0.2".toList, "sect163r1".toList), ("1.3.132.0.3".toList,
    "sect239k1".toList), ("1.3.132.0.4".toList, "sect113r1".toList), ("1.3.132.0.5".toList, "sect113r2".toList), ("1.3.132.0.6".toList,
    "secp112r1".toList), ("1.3.132.0.7".toList, "secp112r2".toList), ("1.3.132.0.8".toList, "secp160r1".toList), ("1.3.132.0.9".toList,
    "secp160k1".toList), ("1.3.132.0.10".toList, "secp256k1".toList), ("1.3.132.0.15".toList, "sect163r2".toList), ("1.3.132.0.16".toList,
    "sect283k1".toList), ("1.3.132.0.17".toList, "sect283r1".toList), ("1.3.132.0.22".toList, "sect131r1".toList), ("1.3.132.0.23".toList,
    "sect131r2".toList), ("1.3.132.0.24".toList, "sect193r1".toList), ("1.3.132.0.25".toList, "sect193r2".toList), ("1.3.132.0.26".toList,
    "sect233k1".toList), ("1.3.132.0.27".toList, "sect233r1".toList), ("1.3.132.0.28".toList, "secp128r1".toList), ("1.3.132.0.29".toList,
    "secp128r2".toList), ("1.3.132.0.30".toList, "secp160r2".toList), ("1.3.132.0.31".toList, "secp192k1".toList), ("1.3.132.0.32".toList,
    "secp224k1".toList), ("1.3.132.0.33".toList, "secp224r1".toList), ("1.3.132.0.34".toList, "secp384r1".toList), ("1.3.132.0.35".toList,
    "secp521r1".toList), ("1.3.132.0.36".toList, "sect409k1".toList), ("1.3.132.0.37".toList, "sect409r1".toList), ("1.3.132.0.38".toList,
    "sect571k1".toList), ("1.3.132.0.39".toList, "sect571r1".toList), ("1.3.36.3.3.2.8.1.1.1".toList, "brainpoolp160r1".toList),
    ("1.3.36.3.3.2.8.1.1.2".toList, "brainpoolp160t1".toList), ("1.3.36.3.3.2.8.1.1.3".toList, "brainpoolp192r1".toList),
    ("1.3.36.3.3.2.8.1.1.4".toList, "brainpoolp192t1".toList), ("1.3.36.3.3.2.8.1.1.5".toList, "brainpoolp224r1".toList),
    ("1.3.36.3.3.2.8.1.1.6".toList, "brainpoolp224t1".toList), ("1.3.36.3.3.2.8.1.1.7".toList, "brainpoolp256r1".toList),
    ("1.3.36.3.3.2.8.1.1.8".toList, "brainpoolp256t1".toList), ("1.3.36.3.3.2.8.1.1.9".toList, "brainpoolp320r1".toList),
    ("1.3.36.3.3.2.8.1.1.10".toList, "brainpoolp320t1".toList), ("1.3.36.3.3.2.8.1.1.11".toList, "brainpoolp384r1".toList),
    ("1.3.36.3.3.2.8.1.1.12".toList, "brainpoolp384t1".toList), ("1.3.36.3.3.2.8.1.1.13".toList, "brainpoolp512r1".toList),
    ("1.3.36.3.3.2.8.1.1.14".toList, "brainpoolp512t1".toList)], none, false⟩ { cls := 0, method := 0, tag := 6 }) []

/-- `ECDomainParameters` (keys.py:514-523) -/
def keys.ECDomainParameters : Shape := .choice [] none [
    ⟨"specified", Id.keys.SpecifiedECDomain, {}⟩,
    ⟨"named", Id.keys.NamedCurve, {}⟩,
    ⟨"implicit_ca", Id.core.Null, {}⟩]

/-- `ECPrivateKeyVersion` (keys.py:551-559) -/
def keys.ECPrivateKeyVersion : Shape := .leaf (.integer (some [(1, "ecPrivkeyVer1")]) { cls := 0, method := 0, tag := 2 }) []

/-- `ECPrivateKey` (keys.py:562-575) -/
def keys.ECPrivateKey : Shape := .seq { cls := 0, method := 1, tag := 16 } [] false [
    ⟨"version", Id.keys.ECPrivateKeyVersion, {}⟩,
    ⟨"private_key", Id.core.IntegerOctetString, {}⟩,
    ⟨"parameters", Id.keys.ECDomainParameters, { explicit := [(2, 0)], optional := true }⟩,
    ⟨"public_key", Id.keys.ECPointBitString, { explicit := [(2, 1)], optional := true }⟩] (none)

/-- `DSAParams` (keys.py:617-629) -/
def keys.DSAParams : Shape := .seq { cls := 0, method := 1, tag := 16 } [] false [
    ⟨"p", Id.core.Integer, {}⟩,
    ⟨"q", Id.core.Integer, {}⟩,
    ⟨"g", Id.core.Integer, {}⟩] (none)

/-- `Attribute` (keys.py:644-652) -/
def keys.Attribute : Shape := .seq { cls := 0, method := 1, tag := 16 } [] false [
    ⟨"type", Id.core.ObjectIdentifier, {}⟩,
    ⟨"values", Id.spec.SetOfAny, {}⟩] (none)

/-- `Attributes` (keys.py:655-660) -/
def keys.Attributes : Shape := .seqOf { cls := 0, method := 1, tag := 17 } [] true (some Id.keys.Attribute)

/-- `PrivateKeyAlgorithmId` (keys.py:663-686) -/
def keys.PrivateKeyAlgorithmId : Shape := .leaf (.oid ⟨some [("1.2.840.113549.1.1.1".toList, "rsa".toList), ("1.2.840.113549.1.1.10".toList,
    "rsassa_pss".toList), ("1.2.840.10040.4.1".toList, "dsa".toList), ("1.2.840.10045.2.1".toList, "ec".toList), ("1.3.101.110".toList,
    "x25519".toList), ("1.3.101.111".toList, "x448".toList), ("1.3.101.112".toList, "ed25519".toList), ("1.3.101.113".toList, "ed448".toList)], none,
    false⟩ { cls := 0, method := 0, tag := 6 }) []

/-- `PrivateKeyAlgorithm` (keys.py:689-705) -/
def keys.PrivateKeyAlgorithm : Shape := .seq { cls := 0, method := 1, tag := 16 } [] false [
    ⟨"algorithm", Id.keys.PrivateKeyAlgorithmId, {}⟩,
    ⟨"parameters", Id.core.Any, { optional := true }⟩] (some ⟨0, none, 1, [("dsa".toList, .value Id.keys.DSAParams), ("ec".toList, .value
      Id.keys.ECDomainParameters), ("rsassa_pss".toList, .value Id.algos.RSASSAPSSParams), ("rsa".toList, .value Id.core.Null),
      ("1.2.840.113549.1.1.11".toList, .value Id.core.Null), ("1.2.840.113549.1.1.12".toList, .value Id.core.Null),
      ("1.2.840.113549.1.1.13".toList, .value Id.core.Null), ("1.2.840.113549.1.1.14".toList, .value Id.core.Null), ("1.3.14.3.2.26".toList,
      .value Id.core.Null), ("2.16.840.1.101.3.4.2.1".toList, .value Id.core.Null), ("2.16.840.1.101.3.4.2.2".toList, .value Id.core.Null),
      ("2.16.840.1.101.3.4.2.3".toList, .value Id.core.Null), ("2.16.840.1.101.3.4.2.4".toList, .value Id.core.Null)], .ok .same⟩)

/-- `PrivateKeyInfo` (keys.py:708-742) -/
def keys.PrivateKeyInfo : Shape := .seq { cls := 0, method := 1, tag := 16 } [] false [
    ⟨"version", Id.core.Integer, {}⟩,
    ⟨"private_key_algorithm", Id.keys.PrivateKeyAlgorithm, {}⟩,
    ⟨"private_key", Id.core.ParsableOctetString, {}⟩,
    ⟨"attributes", Id.keys.Attributes, { implicit := some (2, 0), optional := true }⟩] (some ⟨1, some 0, 2, [("rsa".toList, .value
      Id.keys.RSAPrivateKey), ("rsassa_pss".toList, .value Id.keys.RSAPrivateKey), ("dsa".toList, .value Id.core.Integer), ("ec".toList, .value
      Id.keys.ECPrivateKey), ("x25519".toList, .value Id.core.OctetString), ("x448".toList, .value Id.core.OctetString), ("ed25519".toList, .value
      Id.core.OctetString), ("ed448".toList, .value Id.core.OctetString)], .error .keyError⟩)

/-- `EncryptedPrivateKeyInfo` (keys.py:986-994) -/
def keys.EncryptedPrivateKeyInfo : Shape := .seq { cls := 0, method := 1, tag := 16 } [] false [
    ⟨"encryption_algorithm", Id.algos.EncryptionAlgorithm, {}⟩,
    ⟨"encrypted_data", Id.core.OctetString, {}⟩] (none)

/-- `ValidationParms` (keys.py:999-1007) -/
def keys.ValidationParms : Shape := .seq { cls := 0, method := 1, tag := 16 } [] false [
    ⟨"seed", Id.core.BitString, {}⟩,
    ⟨"pgen_counter", Id.core.Integer, {}⟩] (none)

/-- `DomainParameters` (keys.py:1010-1021) -/
def keys.DomainParameters : Shape := .seq { cls := 0, method := 1, tag := 16 } [] false [
    ⟨"p", Id.core.Integer, {}⟩,
    ⟨"g", Id.core.Integer, {}⟩,
    ⟨"q", Id.core.Integer, {}⟩,
    ⟨"j", Id.core.Integer, { optional := true }⟩,
    ⟨"validation_params", Id.keys.ValidationParms, { optional := true }⟩] (none)

/-- `PublicKeyAlgorithmId` (keys.py:1024-1048) -/
def keys.PublicKeyAlgorithmId : Shape := .leaf (.oid ⟨some [("1.2.840.113549.1.1.1".toList, "rsa".toList), ("1.2.840.113549.1.1.7".toList,
    "rsaes_oaep".toList), ("1.2.840.113549.1.1.10".toList, "rsassa_pss".toList), ("1.2.840.10040.4.1".toList, "dsa".toList),
    ("1.2.840.10045.2.1".toList, "ec".toList), ("1.2.840.10046.2.1".toList, "dh".toList), ("1.3.101.110".toList, "x25519".toList),
    ("1.3.101.111".toList, "x448".toList), ("1.3.101.112".toList, "ed25519".toList), ("1.3.101.113".toList, "ed448".toList)], none, false⟩
    { cls := 0, method := 0, tag := 6 }) []

/-- `PublicKeyAlgorithm` (keys.py:1051-1069) -/
def keys.PublicKeyAlgorithm : Shape := .seq { cls := 0, method := 1, tag := 16 } [] false [
    ⟨"algorithm", Id.keys.PublicKeyAlgorithmId, {}⟩,
    ⟨"parameters", Id.core.Any, { optional := true }⟩] (some ⟨0, none, 1, [("dsa".toList, .value Id.keys.DSAParams), ("ec".toList, .value
      Id.keys.ECDomainParameters), ("dh".toList, .value Id.keys.DomainParameters), ("rsaes_oaep".toList, .value Id.algos.RSAESOAEPParams),
      ("rsassa_pss".toList, .value Id.algos.RSASSAPSSParams), ("rsa".toList, .value Id.core.Null), ("1.2.840.113549.1.1.11".toList, .value
      Id.core.Null), ("1.2.840.113549.1.1.12".toList, .value Id.core.Null), ("1.2.840.113549.1.1.13".toList, .value Id.core.Null),
      ("1.2.840.113549.1.1.14".toList, .value Id.core.Null), ("1.3.14.3.2.26".toList, .value Id.core.Null), ("2.16.840.1.101.3.4.2.1".toList,
      .value Id.core.Null), ("2.16.840.1.101.3.4.2.2".toList, .value Id.core.Null), ("2.16.840.1.101.3.4.2.3".toList, .value Id.core.Null),
      ("2.16.840.1.101.3.4.2.4".toList, .value Id.core.Null)], .ok .same⟩)

/-- `PublicKeyInfo` (keys.py:1072-1110) -/
def keys.PublicKeyInfo : Shape := .seq { cls := 0, method := 1, tag := 16 } [] false [
    ⟨"algorithm", Id.keys.PublicKeyAlgorithm, {}⟩,
    ⟨"public_key", Id.core.ParsableOctetBitString, {}⟩] (some ⟨0, some 0, 1, [("rsa".toList, .value Id.keys.RSAPublicKey), ("rsaes_oaep".toList,
      .value Id.keys.RSAPublicKey), ("rsassa_pss".toList, .value Id.keys.RSAPublicKey), ("dsa".toList, .value Id.core.Integer), ("ec".toList,
      .field Id.keys.ECPointBitString), ("dh".toList, .value Id.core.Integer), ("x25519".toList, .field Id.core.OctetBitString), ("x448".toList,
      .field Id.core.OctetBitString), ("ed25519".toList, .field Id.core.OctetBitString), ("ed448".toList, .field Id.core.OctetBitString)], .error
      .keyError⟩)

/-- `DNSName` (x509.py:71-74) -/
def x509.DNSName (K : Codecs) : Shape := .leaf (.chars K.idna 22 { cls := 0, method := 0, tag := 22 }) [12, 19]

/-- `URI` (x509.py:124-124) -/
def x509.URI (K : Codecs) : Shape := .leaf (.chars K.uri 22 { cls := 0, method := 0, tag := 22 }) []

/-- `EmailAddress` (x509.py:181-189) -/
def x509.EmailAddress (K : Codecs) : Shape := .leaf (.chars K.mail 22 { cls := 0, method := 0, tag := 22 }) [12, 19]

/-- `IPAddress` (x509.py:294-294) -/
def x509.IPAddress (K : Codecs) : Shape := .leaf (.chars K.ip 4 { cls := 0, method := 0, tag := 4 }) []

/-- `Attribute` (x509.py:427-431) -/
def x509.Attribute : Shape := .seq { cls := 0, method := 1, tag := 16 } [] false [
    ⟨"type", Id.core.ObjectIdentifier, {}⟩,
    ⟨"values", Id.spec.SetOfAny, {}⟩] (none)

/-- `Attributes` (x509.py:434-435) -/
def x509.Attributes : Shape := .seqOf { cls := 0, method := 1, tag := 16 } [] false (some Id.x509.Attribute)

/-- `KeyUsage` (x509.py:438-449) -/
def x509.KeyUsage : Shape := .leaf (.named [(0, "digital_signature"), (1, "non_repudiation"), (2, "key_encipherment"), (3, "data_encipherment"), (4,
    "key_agreement"), (5, "key_cert_sign"), (6, "crl_sign"), (7, "encipher_only"), (8, "decipher_only")] { cls := 0, method := 0, tag := 3 }) []

/-- `PrivateKeyUsagePeriod` (x509.py:452-456) -/
def x509.PrivateKeyUsagePeriod : Shape := .seq { cls := 0, method := 1, tag := 16 } [] false [
    ⟨"not_before", Id.core.GeneralizedTime, { implicit := some (2, 0), optional := true }⟩,
    ⟨"not_after", Id.core.GeneralizedTime, { implicit := some (2, 1), optional := true }⟩] (none)

/-- `NotReallyTeletexString` (x509.py:459-468) -/
def x509.NotReallyTeletexString (K : Codecs) : Shape := .leaf (.chars K.cp1252 20 { cls := 0, method := 0, tag := 20 }) []

/-- `DirectoryString` (x509.py:492-501) -/
def x509.DirectoryString : Shape := .choice [] none [
    ⟨"teletex_string", Id.x509.NotReallyTeletexString, {}⟩,
    ⟨"printable_string", Id.core.PrintableString, {}⟩,
    ⟨"universal_string", Id.core.UniversalString, {}⟩,
    ⟨"utf8_string", Id.core.UTF8String, {}⟩,
    ⟨"bmp_string", Id.core.BMPString, {}⟩,
    ⟨"ia5_string", Id.core.IA5String, {}⟩]

/-- `NameType` (x509.py:504-585) -/
def x509.NameType : Shape := .leaf (.oid ⟨some [("2.5.4.3".toList, "common_name".toList), ("2.5.4.4".toList, "surname".toList), ("2.5.4.5".toList,
    "serial_number".toList), ("2.5.4.6".toList, "country_name".toList), ("2.5.4.7".toList, "locality_name".toList), ("2.5.4.8".toList,
    "state_or_province_name".toList), ("2.5.4.9".toList, "street_address".toList), ("2.5.4.10".toList, "organization_name".toList),
    ("2.5.4.11".toList, "organizational_unit_name".toList), ("2.5.4.12".toList, "title".toList), ("2.5.4.15".toList, "business_category".toList),
    ("2.5.4.17".toList, "postal_code".toList), ("2.5.4.20".toList, "telephone_number".toList), ("2.5.4.41".toList, "name".toList), ("2.5.4.42".toList,
    "given_name".toList), ("2.5.4.43".toList, "initials".toList), ("2.5.4.44".toList, "generation_qualifier".toList), ("2.5.4.45".toList,
    "unique_identifier".toList), ("2.5.4.46".toList, "dn_qualifier".toList), ("2.5.4.65".toList, "pseudonym".toList), ("2.5.4.97".toList,
    "organization_identifier".toList), ("2.23.133.2.1".toList, "tpm_manufacturer".toList), ("2.23.133.2.2".toList, "tpm_model".toList),
    ("2.23.133.2.3".toList, "tpm_version".toList), ("2.23.133.2.4".toList, "platform_manufacturer".toList), ("2.23.133.2.5".toList,
    "platform_model".toList), ("2.23.133.2.6".toList, "platform_version".toList), ("1.2.840.113549.1.9.1".toList, "email_address".toList),
    ("1.3.6.1.4.1.311.60.2.1.1".toList, "incorporation_locality".toList), ("1.3.6.1.4.1.311.60.2.1.2".toList,
    "incorporation_state_or_province".toList), ("1.3.6.1.4.1.311.60.2.1.3".toList, "incorporation_country".toList),
    ("0.9.2342.19200300.100.1.1".toList, "user_id".toList), ("0.9.2342.19200300.100.1.25".toList, "domain_component".toList),
    ("0.2.262.1.10.7.20".toList, "name_distinguisher".toList)], none, false⟩ { cls := 0, method := 0, tag := 6 }) []

/-- `NameTypeAndValue` (x509.py:652-698) -/
def x509.NameTypeAndValue : Shape := .seq { cls := 0, method := 1, tag := 16 } [] false [
    ⟨"type", Id.x509.NameType, {}⟩,
    ⟨"value", Id.core.Any, {}⟩] (some ⟨0, none, 1, [("common_name".toList, .value Id.x509.DirectoryString), ("surname".toList, .value
      Id.x509.DirectoryString), ("serial_number".toList, .value Id.x509.DirectoryString), ("country_name".toList, .value Id.x509.DirectoryString),
      ("locality_name".toList, .value Id.x509.DirectoryString), ("state_or_province_name".toList, .value Id.x509.DirectoryString),
      ("street_address".toList, .value Id.x509.DirectoryString), ("organization_name".toList, .value Id.x509.DirectoryString),
      ("organizational_unit_name".toList, .value Id.x509.DirectoryString), ("title".toList, .value Id.x509.DirectoryString),
      ("business_category".toList, .value Id.x509.DirectoryString), ("postal_code".toList, .value Id.x509.DirectoryString),
      ("telephone_number".toList, .value Id.core.PrintableString), ("name".toList, .value Id.x509.DirectoryString), ("given_name".toList, .value
      Id.x509.DirectoryString), ("initials".toList, .value Id.x509.DirectoryString), ("generation_qualifier".toList, .value
      Id.x509.DirectoryString), ("unique_identifier".toList, .value Id.core.OctetBitString), ("dn_qualifier".toList, .value
      Id.x509.DirectoryString), ("pseudonym".toList, .value Id.x509.DirectoryString), ("email_address".toList, .value Id.x509.EmailAddress),
      ("incorporation_locality".toList, .value Id.x509.DirectoryString), ("incorporation_state_or_province".toList, .value
      Id.x509.DirectoryString), ("incorporation_country".toList, .value Id.x509.DirectoryString), ("domain_component".toList, .value
      Id.x509.DNSName), ("name_distinguisher".toList, .value Id.x509.DirectoryString), ("organization_identifier".toList, .value
      Id.x509.DirectoryString), ("tpm_manufacturer".toList, .value Id.core.UTF8String), ("tpm_model".toList, .value Id.core.UTF8String),
      ("tpm_version".toList, .value Id.core.UTF8String), ("platform_manufacturer".toList, .value Id.core.UTF8String), ("platform_model".toList,
      .value Id.core.UTF8String), ("platform_version".toList, .value Id.core.UTF8String), ("user_id".toList, .value Id.x509.DirectoryString)], .ok
      .same⟩)

/-- `RelativeDistinguishedName` (x509.py:851-852) -/
def x509.RelativeDistinguishedName : Shape := .seqOf { cls := 0, method := 1, tag := 17 } [] true (some Id.x509.NameTypeAndValue)

/-- `RDNSequence` (x509.py:936-937) -/
def x509.RDNSequence : Shape := .seqOf { cls := 0, method := 1, tag := 16 } [] false (some Id.x509.RelativeDistinguishedName)

/-- `Name` (x509.py:978-985) -/
def x509.Name : Shape := .choice [] none [
    ⟨"", Id.x509.RDNSequence, {}⟩]

/-- `AnotherName` (x509.py:1185-1189) -/
def x509.AnotherName : Shape := .seq { cls := 0, method := 1, tag := 16 } [] false [
    ⟨"type_id", Id.core.ObjectIdentifier, {}⟩,
    ⟨"value", Id.core.Any, { explicit := [(2, 0)] }⟩] (none)

/-- `PrivateDomainName` (x509.py:1212-1216) -/
def x509.PrivateDomainName : Shape := .choice [] none [
    ⟨"numeric", Id.core.NumericString, {}⟩,
    ⟨"printable", Id.core.PrintableString, {}⟩]

/-- `PersonalName` (x509.py:1219-1225) -/
def x509.PersonalName : Shape := .seq { cls := 0, method := 1, tag := 17 } [] true [
    ⟨"surname", Id.core.PrintableString, { implicit := some (2, 0) }⟩,
    ⟨"given_name", Id.core.PrintableString, { implicit := some (2, 1), optional := true }⟩,
    ⟨"initials", Id.core.PrintableString, { implicit := some (2, 2), optional := true }⟩,
    ⟨"generation_qualifier", Id.core.PrintableString, { implicit := some (2, 3), optional := true }⟩] (none)

/-- `TeletexPersonalName` (x509.py:1228-1234) -/
def x509.TeletexPersonalName : Shape := .seq { cls := 0, method := 1, tag := 17 } [] true [
    ⟨"surname", Id.core.TeletexString, { implicit := some (2, 0) }⟩,
    ⟨"given_name", Id.core.TeletexString, { implicit := some (2, 1), optional := true }⟩,
    ⟨"initials", Id.core.TeletexString, { implicit := some (2, 2), optional := true }⟩,
    ⟨"generation_qualifier", Id.core.TeletexString, { implicit := some (2, 3), optional := true }⟩] (none)

/-- `OrganizationalUnitNames` (x509.py:1237-1238) -/
def x509.OrganizationalUnitNames : Shape := .seqOf { cls := 0, method := 1, tag := 16 } [] false (some Id.core.PrintableString)

/-- `TeletexOrganizationalUnitNames` (x509.py:1241-1242) -/
def x509.TeletexOrganizationalUnitNames : Shape := .seqOf { cls := 0, method := 1, tag := 16 } [] false (some Id.core.TeletexString)

/-- `BuiltInDomainDefinedAttribute` (x509.py:1259-1263) -/
def x509.BuiltInDomainDefinedAttribute : Shape := .seq { cls := 0, method := 1, tag := 16 } [] false [
    ⟨"type", Id.core.PrintableString, {}⟩,
    ⟨"value", Id.core.PrintableString, {}⟩] (none)

/-- `BuiltInDomainDefinedAttributes` (x509.py:1266-1267) -/
def x509.BuiltInDomainDefinedAttributes : Shape := .seqOf { cls := 0, method := 1, tag := 16 } [] false (some Id.x509.BuiltInDomainDefinedAttribute)

/-- `TeletexDomainDefinedAttribute` (x509.py:1270-1274) -/
def x509.TeletexDomainDefinedAttribute : Shape := .seq { cls := 0, method := 1, tag := 16 } [] false [
    ⟨"type", Id.core.TeletexString, {}⟩,
    ⟨"value", Id.core.TeletexString, {}⟩] (none)

/-- `TeletexDomainDefinedAttributes` (x509.py:1277-1278) -/
def x509.TeletexDomainDefinedAttributes : Shape := .seqOf { cls := 0, method := 1, tag := 16 } [] false (some Id.x509.TeletexDomainDefinedAttribute)

/-- `PhysicalDeliveryCountryName` (x509.py:1281-1285) -/
def x509.PhysicalDeliveryCountryName : Shape := .choice [] none [
    ⟨"x121_dcc_code", Id.core.NumericString, {}⟩,
    ⟨"iso_3166_alpha2_code", Id.core.PrintableString, {}⟩]

/-- `PostalCode` (x509.py:1288-1292) -/
def x509.PostalCode : Shape := .choice [] none [
    ⟨"numeric_code", Id.core.NumericString, {}⟩,
    ⟨"printable_code", Id.core.PrintableString, {}⟩]

/-- `PDSParameter` (x509.py:1295-1299) -/
def x509.PDSParameter : Shape := .seq { cls := 0, method := 1, tag := 17 } [] true [
    ⟨"printable_string", Id.core.PrintableString, { optional := true }⟩,
    ⟨"teletex_string", Id.core.TeletexString, { optional := true }⟩] (none)

/-- `PrintableAddress` (x509.py:1302-1303) -/
def x509.PrintableAddress : Shape := .seqOf { cls := 0, method := 1, tag := 16 } [] false (some Id.core.PrintableString)

/-- `UnformattedPostalAddress` (x509.py:1306-1310) -/
def x509.UnformattedPostalAddress : Shape := .seq { cls := 0, method := 1, tag := 17 } [] true [
    ⟨"printable_address", Id.x509.PrintableAddress, { optional := true }⟩,
    ⟨"teletex_string", Id.core.TeletexString, { optional := true }⟩] (none)

/-- `E1634Address` (x509.py:1313-1317) -/
def x509.E1634Address : Shape := .seq { cls := 0, method := 1, tag := 16 } [] false [
    ⟨"number", Id.core.NumericString, { implicit := some (2, 0) }⟩,
    ⟨"sub_address", Id.core.NumericString, { implicit := some (2, 1), optional := true }⟩] (none)

/-- `NAddresses` (x509.py:1320-1321) -/
def x509.NAddresses : Shape := .seqOf { cls := 0, method := 1, tag := 17 } [] true (some Id.core.OctetString)

/-- `PresentationAddress` (x509.py:1324-1330) -/
def x509.PresentationAddress : Shape := .seq { cls := 0, method := 1, tag := 16 } [] false [
    ⟨"p_selector", Id.core.OctetString, { explicit := [(2, 0)], optional := true }⟩,
    ⟨"s_selector", Id.core.OctetString, { explicit := [(2, 1)], optional := true }⟩,
    ⟨"t_selector", Id.core.OctetString, { explicit := [(2, 2)], optional := true }⟩,
    ⟨"n_addresses", Id.x509.NAddresses, { explicit := [(2, 3)] }⟩] (none)

/-- `ExtendedNetworkAddress` (x509.py:1333-1337) -/
def x509.ExtendedNetworkAddress : Shape := .choice [] none [
    ⟨"e163_4_address", Id.x509.E1634Address, {}⟩,
    ⟨"psap_address", Id.x509.PresentationAddress, { implicit := some (2, 0) }⟩]

/-- `TerminalType` (x509.py:1340-1348) -/
def x509.TerminalType : Shape := .leaf (.integer (some [(3, "telex"), (4, "teletex"), (5, "g3_facsimile"), (6, "g4_facsimile"), (7, "ia5_terminal"),
    (8, "videotex")]) { cls := 0, method := 0, tag := 2 }) []

/-- `ExtensionAttributeType` (x509.py:1351-1376) -/
def x509.ExtensionAttributeType : Shape := .leaf (.integer (some [(1, "common_name"), (2, "teletex_common_name"), (3, "teletex_organization_name"),
    (4, "teletex_personal_name"), (5, "teletex_organization_unit_names"), (6, "teletex_domain_defined_attributes"), (7, "pds_name"), (8,
    "physical_delivery_country_name"), (9, "postal_code"), (10, "physical_delivery_office_name"), (11, "physical_delivery_office_number"), (12,
    "extension_of_address_components"), (13, "physical_delivery_personal_name"), (14, "physical_delivery_organization_name"), (15,
    "extension_physical_delivery_address_components"), (16, "unformatted_postal_address"), (17, "street_address"), (18, "post_office_box_address"),
    (19, "poste_restante_address"), (20, "unique_postal_name"), (21, "local_postal_attributes"), (22, "extended_network_address"), (23,
    "terminal_type")]) { cls := 0, method := 0, tag := 2 }) []

/-- `ExtensionAttribute` (x509.py:1379-1410) -/
def x509.ExtensionAttribute : Shape := .seq { cls := 0, method := 1, tag := 16 } [] false [
    ⟨"extension_attribute_type", Id.x509.ExtensionAttributeType, { implicit := some (2, 0) }⟩,
    ⟨"extension_attribute_value", Id.core.Any, { explicit := [(2, 1)] }⟩] (some ⟨0, none, 1, [("common_name".toList, .value Id.core.PrintableString),
      ("teletex_common_name".toList, .value Id.core.TeletexString), ("teletex_organization_name".toList, .value Id.core.TeletexString),
      ("teletex_personal_name".toList, .value Id.x509.TeletexPersonalName), ("teletex_organization_unit_names".toList, .value
      Id.x509.TeletexOrganizationalUnitNames), ("teletex_domain_defined_attributes".toList, .value Id.x509.TeletexDomainDefinedAttributes),
      ("pds_name".toList, .value Id.core.PrintableString), ("physical_delivery_country_name".toList, .value Id.x509.PhysicalDeliveryCountryName),
      ("postal_code".toList, .value Id.x509.PostalCode), ("physical_delivery_office_name".toList, .value Id.x509.PDSParameter),
      ("physical_delivery_office_number".toList, .value Id.x509.PDSParameter), ("extension_of_address_components".toList, .value
      Id.x509.PDSParameter), ("physical_delivery_personal_name".toList, .value Id.x509.PDSParameter),
      ("physical_delivery_organization_name".toList, .value Id.x509.PDSParameter), ("extension_physical_delivery_address_components".toList,
      .value Id.x509.PDSParameter), ("unformatted_postal_address".toList, .value Id.x509.UnformattedPostalAddress), ("street_address".toList,
      .value Id.x509.PDSParameter), ("post_office_box_address".toList, .value Id.x509.PDSParameter), ("poste_restante_address".toList, .value
      Id.x509.PDSParameter), ("unique_postal_name".toList, .value Id.x509.PDSParameter), ("local_postal_attributes".toList, .value
      Id.x509.PDSParameter), ("extended_network_address".toList, .value Id.x509.ExtendedNetworkAddress), ("terminal_type".toList, .value
      Id.x509.TerminalType)], .ok .same⟩)

/-- `ExtensionAttributes` (x509.py:1413-1414) -/
def x509.ExtensionAttributes : Shape := .seqOf { cls := 0, method := 1, tag := 16 } [] false (some Id.x509.ExtensionAttribute)

/-- `GeneralName` (x509.py:1432-1443) -/
def x509.GeneralName : Shape := .choice [] none [
    ⟨"other_name", Id.x509.AnotherName, { implicit := some (2, 0) }⟩,
    ⟨"rfc822_name", Id.x509.EmailAddress, { implicit := some (2, 1) }⟩,
    ⟨"dns_name", Id.x509.DNSName, { implicit := some (2, 2) }⟩,
    ⟨"x400_address", Id.x509.ORAddress, { implicit := some (2, 3) }⟩,
    ⟨"directory_name", Id.x509.Name, { explicit := [(2, 4)] }⟩,
    ⟨"edi_party_name", Id.x509.EDIPartyName, { implicit := some (2, 5) }⟩,
    ⟨"uniform_resource_identifier", Id.x509.URI, { implicit := some (2, 6) }⟩,
    ⟨"ip_address", Id.x509.IPAddress, { implicit := some (2, 7) }⟩,
    ⟨"registered_id", Id.core.ObjectIdentifier, { implicit := some (2, 8) }⟩]

/-- `GeneralNames` (x509.py:1482-1483) -/
def x509.GeneralNames : Shape := .seqOf { cls := 0, method := 1, tag := 16 } [] false (some Id.x509.GeneralName)

/-- `Time` (x509.py:1486-1490) -/
def x509.Time : Shape := .choice [] none [
    ⟨"utc_time", Id.core.UTCTime, {}⟩,
    ⟨"general_time", Id.core.GeneralizedTime, {}⟩]

/-- `Validity` (x509.py:1493-1497) -/
def x509.Validity : Shape := .seq { cls := 0, method := 1, tag := 16 } [] false [
    ⟨"not_before", Id.x509.Time, {}⟩,
    ⟨"not_after", Id.x509.Time, {}⟩] (none)

/-- `BasicConstraints` (x509.py:1500-1504) -/
def x509.BasicConstraints : Shape := .seq { cls := 0, method := 1, tag := 16 } [] false [
    ⟨"ca", Id.core.Boolean, { default := some (.scalar (.bool false)) }⟩,
    ⟨"path_len_constraint", Id.core.Integer, { optional := true }⟩] (none)

/-- `AuthorityKeyIdentifier` (x509.py:1507-1512) -/
def x509.AuthorityKeyIdentifier : Shape := .seq { cls := 0, method := 1, tag := 16 } [] false [
    ⟨"key_identifier", Id.core.OctetString, { implicit := some (2, 0), optional := true }⟩,
    ⟨"authority_cert_issuer", Id.x509.GeneralNames, { implicit := some (2, 1), optional := true }⟩,
    ⟨"authority_cert_serial_number", Id.core.Integer, { implicit := some (2, 2), optional := true }⟩] (none)

/-- `DistributionPointName` (x509.py:1515-1519) -/
def x509.DistributionPointName : Shape := .choice [] none [
    ⟨"full_name", Id.x509.GeneralNames, { implicit := some (2, 0) }⟩,
    ⟨"name_relative_to_crl_issuer", Id.x509.RelativeDistinguishedName, { implicit := some (2, 1) }⟩]

/-- `ReasonFlags` (x509.py:1522-1533) -/
def x509.ReasonFlags : Shape := .leaf (.named [(0, "unused"), (1, "key_compromise"), (2, "ca_compromise"), (3, "affiliation_changed"), (4,
    "superseded"), (5, "cessation_of_operation"), (6, "certificate_hold"), (7, "privilege_withdrawn"), (8, "aa_compromise")]
    { cls := 0, method := 0, tag := 3 }) []

/-- `GeneralSubtree` (x509.py:1536-1541) -/
def x509.GeneralSubtree : Shape := .seq { cls := 0, method := 1, tag := 16 } [] false [
    ⟨"base", Id.x509.GeneralName, {}⟩,
    ⟨"minimum", Id.core.Integer, { implicit := some (2, 0), default := some (.scalar (.int 0)) }⟩,
    ⟨"maximum", Id.core.Integer, { implicit := some (2, 1), optional := true }⟩] (none)

/-- `GeneralSubtrees` (x509.py:1544-1545) -/
def x509.GeneralSubtrees : Shape := .seqOf { cls := 0, method := 1, tag := 16 } [] false (some Id.x509.GeneralSubtree)

/-- `NameConstraints` (x509.py:1548-1552) -/
def x509.NameConstraints : Shape := .seq { cls := 0, method := 1, tag := 16 } [] false [
    ⟨"permitted_subtrees", Id.x509.GeneralSubtrees, { implicit := some (2, 0), optional := true }⟩,
    ⟨"excluded_subtrees", Id.x509.GeneralSubtrees, { implicit := some (2, 1), optional := true }⟩] (none)

/-- `DistributionPoint` (x509.py:1555-1562) -/
def x509.DistributionPoint : Shape := .seq { cls := 0, method := 1, tag := 16 } [] false [
    ⟨"distribution_point", Id.x509.DistributionPointName, { explicit := [(2, 0)], optional := true }⟩,
    ⟨"reasons", Id.x509.ReasonFlags, { implicit := some (2, 1), optional := true }⟩,
    ⟨"crl_issuer", Id.x509.GeneralNames, { implicit := some (2, 2), optional := true }⟩] (none)

/-- `CRLDistributionPoints` (x509.py:1592-1593) -/
def x509.CRLDistributionPoints : Shape := .seqOf { cls := 0, method := 1, tag := 16 } [] false (some Id.x509.DistributionPoint)

/-- `DisplayText` (x509.py:1596-1602) -/
def x509.DisplayText : Shape := .choice [] none [
    ⟨"ia5_string", Id.core.IA5String, {}⟩,
    ⟨"visible_string", Id.core.VisibleString, {}⟩,
    ⟨"bmp_string", Id.core.BMPString, {}⟩,
    ⟨"utf8_string", Id.core.UTF8String, {}⟩]

/-- `NoticeNumbers` (x509.py:1605-1606) -/
def x509.NoticeNumbers : Shape := .seqOf { cls := 0, method := 1, tag := 16 } [] false (some Id.core.Integer)

/-- `NoticeReference` (x509.py:1609-1613) -/
def x509.NoticeReference : Shape := .seq { cls := 0, method := 1, tag := 16 } [] false [
    ⟨"organization", Id.x509.DisplayText, {}⟩,
    ⟨"notice_numbers", Id.x509.NoticeNumbers, {}⟩] (none)

/-- `UserNotice` (x509.py:1616-1620) -/
def x509.UserNotice : Shape := .seq { cls := 0, method := 1, tag := 16 } [] false [
    ⟨"notice_ref", Id.x509.NoticeReference, { optional := true }⟩,
    ⟨"explicit_text", Id.x509.DisplayText, { optional := true }⟩] (none)

/-- `PolicyQualifierId` (x509.py:1623-1627) -/
def x509.PolicyQualifierId : Shape := .leaf (.oid ⟨some [("1.3.6.1.5.5.7.2.1".toList, "certification_practice_statement".toList),
    ("1.3.6.1.5.5.7.2.2".toList, "user_notice".toList)], none, false⟩ { cls := 0, method := 0, tag := 6 }) []

/-- `PolicyQualifierInfo` (x509.py:1630-1640) -/
def x509.PolicyQualifierInfo : Shape := .seq { cls := 0, method := 1, tag := 16 } [] false [
    ⟨"policy_qualifier_id", Id.x509.PolicyQualifierId, {}⟩,
    ⟨"qualifier", Id.core.Any, {}⟩] (some ⟨0, none, 1, [("certification_practice_statement".toList, .value Id.core.IA5String), ("user_notice".toList,
      .value Id.x509.UserNotice)], .ok .same⟩)

/-- `PolicyQualifierInfos` (x509.py:1643-1644) -/
def x509.PolicyQualifierInfos : Shape := .seqOf { cls := 0, method := 1, tag := 16 } [] false (some Id.x509.PolicyQualifierInfo)

/-- `PolicyIdentifier` (x509.py:1647-1650) -/
def x509.PolicyIdentifier : Shape := .leaf (.oid ⟨some [("2.5.29.32.0".toList, "any_policy".toList)], none, false⟩
    { cls := 0, method := 0, tag := 6 }) []

/-- `PolicyInformation` (x509.py:1653-1657) -/
def x509.PolicyInformation : Shape := .seq { cls := 0, method := 1, tag := 16 } [] false [
    ⟨"policy_identifier", Id.x509.PolicyIdentifier, {}⟩,
    ⟨"policy_qualifiers", Id.x509.PolicyQualifierInfos, { optional := true }⟩] (none)

/-- `CertificatePolicies` (x509.py:1660-1661) -/
def x509.CertificatePolicies : Shape := .seqOf { cls := 0, method := 1, tag := 16 } [] false (some Id.x509.PolicyInformation)

/-- `PolicyMapping` (x509.py:1664-1668) -/
def x509.PolicyMapping : Shape := .seq { cls := 0, method := 1, tag := 16 } [] false [
    ⟨"issuer_domain_policy", Id.x509.PolicyIdentifier, {}⟩,
    ⟨"subject_domain_policy", Id.x509.PolicyIdentifier, {}⟩] (none)

/-- `PolicyMappings` (x509.py:1671-1672) -/
def x509.PolicyMappings : Shape := .seqOf { cls := 0, method := 1, tag := 16 } [] false (some Id.x509.PolicyMapping)

/-- `PolicyConstraints` (x509.py:1675-1679) -/
def x509.PolicyConstraints : Shape := .seq { cls := 0, method := 1, tag := 16 } [] false [
    ⟨"require_explicit_policy", Id.core.Integer, { implicit := some (2, 0), optional := true }⟩,
    ⟨"inhibit_policy_mapping", Id.core.Integer, { implicit := some (2, 1), optional := true }⟩] (none)

/-- `KeyPurposeId` (x509.py:1682-1791, pdf.py:82) -/
def x509.KeyPurposeId : Shape := .leaf (.oid ⟨some [("2.5.29.37.0".toList, "any_extended_key_usage".toList), ("1.3.6.1.5.5.7.3.1".toList,
    "server_auth".toList), ("1.3.6.1.5.5.7.3.2".toList, "client_auth".toList), ("1.3.6.1.5.5.7.3.3".toList, "code_signing".toList),
    ("1.3.6.1.5.5.7.3.4".toList, "email_protection".toList), ("1.3.6.1.5.5.7.3.5".toList, "ipsec_end_system".toList), ("1.3.6.1.5.5.7.3.6".toList,
    "ipsec_tunnel".toList), ("1.3.6.1.5.5.7.3.7".toList, "ipsec_user".toList), ("1.3.6.1.5.5.7.3.8".toList, "time_stamping".toList),
    ("1.3.6.1.5.5.7.3.9".toList, "ocsp_signing".toList), ("1.3.6.1.5.5.7.3.10".toList, "dvcs".toList), ("1.3.6.1.5.5.7.3.13".toList,
    "eap_over_ppp".toList), ("1.3.6.1.5.5.7.3.14".toList, "eap_over_lan".toList), ("1.3.6.1.5.5.7.3.15".toList, "scvp_server".toList),
    ("1.3.6.1.5.5.7.3.16".toList, "scvp_client".toList), ("1.3.6.1.5.5.7.3.17".toList, "ipsec_ike".toList), ("1.3.6.1.5.5.7.3.18".toList,
    "capwap_ac".toList), ("1.3.6.1.5.5.7.3.19".toList, "capwap_wtp".toList), ("1.3.6.1.5.5.7.3.20".toList, "sip_domain".toList),
    ("1.3.6.1.5.5.7.3.21".toList, "secure_shell_client".toList), ("1.3.6.1.5.5.7.3.22".toList, "secure_shell_server".toList),
    ("1.3.6.1.5.5.7.3.23".toList, "send_router".toList), ("1.3.6.1.5.5.7.3.24".toList, "send_proxied_router".toList), ("1.3.6.1.5.5.7.3.25".toList,
    "send_owner".toList), ("1.3.6.1.5.5.7.3.26".toList, "send_proxied_owner".toList), ("1.3.6.1.5.5.7.3.27".toList, "cmc_ca".toList),
    ("1.3.6.1.5.5.7.3.28".toList, "cmc_ra".toList), ("1.3.6.1.5.5.7.3.29".toList, "cmc_archive".toList), ("1.3.6.1.5.5.7.3.30".toList,
    "bgpspec_router".toList), ("1.3.6.1.5.5.8.2.2".toList, "ike_intermediate".toList), ("1.3.6.1.4.1.311.10.3.1".toList,
    "microsoft_trust_list_signing".toList), ("1.3.6.1.4.1.311.10.3.2".toList, "microsoft_time_stamp_signing".toList),
    ("1.3.6.1.4.1.311.10.3.3".toList, "microsoft_server_gated".toList), ("1.3.6.1.4.1.311.10.3.3.1".toList, "microsoft_serialized".toList),
    ("1.3.6.1.4.1.311.10.3.4".toList, "microsoft_efs".toList), ("1.3.6.1.4.1.311.10.3.4.1".toList, "microsoft_efs_recovery".toList),
    ("1.3.6.1.4.1.311.10.3.5".toList, "microsoft_whql".toList), ("1.3.6.1.4.1.311.10.3.6".toList, "microsoft_nt5".toList),
    ("1.3.6.1.4.1.311.10.3.7".toList, "microsoft_oem_whql".toList), ("1.3.6.1.4.1.311.10.3.8".toList, "microsoft_embedded_nt".toList),
    ("1.3.6.1.4.1.311.10.3.9".toList, "microsoft_root_list_signer".toList), ("1.3.6.1.4.1.311.10.3.10".toList,
    "microsoft_qualified_subordination".toList), ("1.3.6.1.4.1.311.10.3.11".toList, "microsoft_key_recovery".toList),
    ("1.3.6.1.4.1.311.10.3.12".toList, "microsoft_document_signing".toList), ("1.3.6.1.4.1.311.10.3.13".toList, "microsoft_lifetime_signing".toList),
    ("1.3.6.1.4.1.311.10.3.14".toList, "microsoft_mobile_device_software".toList), ("1.3.6.1.4.1.311.20.2.2".toList,
    "microsoft_smart_card_logon".toList), ("1.2.840.113635.100.1.2".toList, "apple_x509_basic".toList), ("1.2.840.113635.100.1.3".toList,
    "apple_ssl".toList), ("1.2.840.113635.100.1.4".toList, "apple_local_cert_gen".toList), ("1.2.840.113635.100.1.5".toList, "apple_csr_gen".toList),
    ("1.2.840.113635.100.1.6".toList, "apple_revocation_crl".toList), ("1.2.840.113635.100.1.7".toList, "apple_revocation_ocsp".toList),
    ("1.2.840.113635.100.1.8".toList, "apple_smime".toList), ("1.2.840.113635.100.1.9".toList, "apple_eap".toList), ("1.2.840.113635.100.1.10".toList,
    "apple_software_update_signing".toList), ("1.2.840.113635.100.1.11".toList, "apple_ipsec".toList), ("1.2.840.113635.100.1.12".toList,
    "apple_ichat".toList), ("1.2.840.113635.100.1.13".toList, "apple_resource_signing".toList), ("1.2.840.113635.100.1.14".toList,
    "apple_pkinit_client".toList), ("1.2.840.113635.100.1.15".toList, "apple_pkinit_server".toList), ("1.2.840.113635.100.1.16".toList,
    "apple_code_signing".toList), ("1.2.840.113635.100.1.17".toList, "apple_package_signing".toList), ("1.2.840.113635.100.1.18".toList,
    "apple_id_validation".toList), ("1.2.840.113635.100.1.20".toList, "apple_time_stamping".toList), ("1.2.840.113635.100.1.21".toList,
    "apple_revocation".toList), ("1.2.840.113635.100.1.22".toList, "apple_passbook_signing".toList), ("1.2.840.113635.100.1.23".toList,
    "apple_mobile_store".toList), ("1.2.840.113635.100.1.24".toList, "apple_escrow_service".toList), ("1.2.840.113635.100.1.25".toList,
    "apple_profile_signer".toList), ("1.2.840.113635.100.1.26".toList, "apple_qa_profile_signer".toList), ("1.2.840.113635.100.1.27".toList,
    "apple_test_mobile_store".toList), ("1.2.840.113635.100.1.28".toList, "apple_otapki_signer".toList), ("1.2.840.113635.100.1.29".toList,
    "apple_test_otapki_signer".toList), ("1.2.840.113625.100.1.30".toList, "apple_id_validation_record_signing_policy".toList),
    ("1.2.840.113625.100.1.31".toList, "apple_smp_encryption".toList), ("1.2.840.113625.100.1.32".toList, "apple_test_smp_encryption".toList),
    ("1.2.840.113635.100.1.33".toList, "apple_server_authentication".toList), ("1.2.840.113635.100.1.34".toList, "apple_pcs_escrow_service".toList),
    ("2.16.840.1.101.3.6.8".toList, "piv_card_authentication".toList), ("2.16.840.1.101.3.6.7".toList, "piv_content_signing".toList),
    ("1.3.6.1.5.2.3.4".toList, "pkinit_kpclientauth".toList), ("1.3.6.1.5.2.3.5".toList, "pkinit_kpkdc".toList), ("1.2.840.113583.1.1.5".toList,
    "pdf_signing".toList), ("2.16.840.1.101.3.8.7".toList, "fpki_pivi_content_signing".toList)], none, false⟩ { cls := 0, method := 0, tag := 6 }) []

/-- `ExtKeyUsageSyntax` (x509.py:1794-1795) -/
def x509.ExtKeyUsageSyntax : Shape := .seqOf { cls := 0, method := 1, tag := 16 } [] false (some Id.x509.KeyPurposeId)

/-- `AccessMethod` (x509.py:1798-1804) -/
def x509.AccessMethod : Shape := .leaf (.oid ⟨some [("1.3.6.1.5.5.7.48.1".toList, "ocsp".toList), ("1.3.6.1.5.5.7.48.2".toList, "ca_issuers".toList),
    ("1.3.6.1.5.5.7.48.3".toList, "time_stamping".toList), ("1.3.6.1.5.5.7.48.5".toList, "ca_repository".toList)], none, false⟩
    { cls := 0, method := 0, tag := 6 }) []

/-- `AccessDescription` (x509.py:1807-1811) -/
def x509.AccessDescription : Shape := .seq { cls := 0, method := 1, tag := 16 } [] false [
    ⟨"access_method", Id.x509.AccessMethod, {}⟩,
    ⟨"access_location", Id.x509.GeneralName, {}⟩] (none)

/-- `AuthorityInfoAccessSyntax` (x509.py:1814-1815) -/
def x509.AuthorityInfoAccessSyntax : Shape := .seqOf { cls := 0, method := 1, tag := 16 } [] false (some Id.x509.AccessDescription)

/-- `SubjectInfoAccessSyntax` (x509.py:1818-1819) -/
def x509.SubjectInfoAccessSyntax : Shape := .seqOf { cls := 0, method := 1, tag := 16 } [] false (some Id.x509.AccessDescription)

/-- `Features` (x509.py:1823-1824) -/
def x509.Features : Shape := .seqOf { cls := 0, method := 1, tag := 16 } [] false (some Id.core.Integer)

/-- `EntrustVersionInfo` (x509.py:1827-1831) -/
def x509.EntrustVersionInfo : Shape := .seq { cls := 0, method := 1, tag := 16 } [] false [
    ⟨"entrust_vers", Id.core.GeneralString, {}⟩,
    ⟨"entrust_info_flags", Id.core.BitString, {}⟩] (none)

/-- `NetscapeCertificateType` (x509.py:1834-1844) -/
def x509.NetscapeCertificateType : Shape := .leaf (.named [(0, "ssl_client"), (1, "ssl_server"), (2, "email"), (3, "object_signing"), (4, "reserved"),
    (5, "ssl_ca"), (6, "email_ca"), (7, "object_signing_ca")] { cls := 0, method := 0, tag := 3 }) []

/-- `Version` (x509.py:1847-1852) -/
def x509.Version : Shape := .leaf (.integer (some [(0, "v1"), (1, "v2"), (2, "v3")]) { cls := 0, method := 0, tag := 2 }) []

/-- `TPMSpecification` (x509.py:1855-1860) -/
def x509.TPMSpecification : Shape := .seq { cls := 0, method := 1, tag := 16 } [] false [
    ⟨"family", Id.core.UTF8String, {}⟩,
    ⟨"level", Id.core.Integer, {}⟩,
    ⟨"revision", Id.core.Integer, {}⟩] (none)

/-- `SetOfTPMSpecification` (x509.py:1863-1864) -/
def x509.SetOfTPMSpecification : Shape := .seqOf { cls := 0, method := 1, tag := 17 } [] true (some Id.x509.TPMSpecification)

/-- `TCGSpecificationVersion` (x509.py:1867-1872) -/
def x509.TCGSpecificationVersion : Shape := .seq { cls := 0, method := 1, tag := 16 } [] false [
    ⟨"major_version", Id.core.Integer, {}⟩,
    ⟨"minor_version", Id.core.Integer, {}⟩,
    ⟨"revision", Id.core.Integer, {}⟩] (none)

/-- `TCGPlatformSpecification` (x509.py:1875-1879) -/
def x509.TCGPlatformSpecification : Shape := .seq { cls := 0, method := 1, tag := 16 } [] false [
    ⟨"version", Id.x509.TCGSpecificationVersion, {}⟩,
    ⟨"platform_class", Id.core.OctetString, {}⟩] (none)

/-- `SetOfTCGPlatformSpecification` (x509.py:1882-1883) -/
def x509.SetOfTCGPlatformSpecification : Shape := .seqOf { cls := 0, method := 1, tag := 17 } [] true (some Id.x509.TCGPlatformSpecification)

/-- `EKGenerationType` (x509.py:1886-1892) -/
def x509.EKGenerationType : Shape := .leaf (.enumerated (some [(0, "internal"), (1, "injected"), (2, "internal_revocable"), (3,
    "injected_revocable")]) { cls := 0, method := 0, tag := 10 }) []

/-- `EKGenerationLocation` (x509.py:1895-1900) -/
def x509.EKGenerationLocation : Shape := .leaf (.enumerated (some [(0, "tpm_manufacturer"), (1, "platform_manufacturer"), (2, "ek_cert_signer")])
    { cls := 0, method := 0, tag := 10 }) []

/-- `EKCertificateGenerationLocation` (x509.py:1903-1908) -/
def x509.EKCertificateGenerationLocation : Shape := .leaf (.enumerated (some [(0, "tpm_manufacturer"), (1, "platform_manufacturer"), (2,
    "ek_cert_signer")]) { cls := 0, method := 0, tag := 10 }) []

/-- `EvaluationAssuranceLevel` (x509.py:1911-1920) -/
def x509.EvaluationAssuranceLevel : Shape := .leaf (.enumerated (some [(1, "level1"), (2, "level2"), (3, "level3"), (4, "level4"), (5, "level5"), (6,
    "level6"), (7, "level7")]) { cls := 0, method := 0, tag := 10 }) []

/-- `EvaluationStatus` (x509.py:1923-1928) -/
def x509.EvaluationStatus : Shape := .leaf (.enumerated (some [(0, "designed_to_meet"), (1, "evaluation_in_progress"), (2, "evaluation_completed")])
    { cls := 0, method := 0, tag := 10 }) []

/-- `StrengthOfFunction` (x509.py:1931-1936) -/
def x509.StrengthOfFunction : Shape := .leaf (.enumerated (some [(0, "basic"), (1, "medium"), (2, "high")]) { cls := 0, method := 0, tag := 10 }) []

/-- `URIReference` (x509.py:1939-1944) -/
def x509.URIReference : Shape := .seq { cls := 0, method := 1, tag := 16 } [] false [
    ⟨"uniform_resource_identifier", Id.core.IA5String, {}⟩,
    ⟨"hash_algorithm", Id.algos.DigestAlgorithm, { optional := true }⟩,
    ⟨"hash_value", Id.core.BitString, { optional := true }⟩] (none)

/-- `CommonCriteriaMeasures` (x509.py:1947-1958) -/
def x509.CommonCriteriaMeasures : Shape := .seq { cls := 0, method := 1, tag := 16 } [] false [
    ⟨"version", Id.core.IA5String, {}⟩,
    ⟨"assurance_level", Id.x509.EvaluationAssuranceLevel, {}⟩,
    ⟨"evaluation_status", Id.x509.EvaluationStatus, {}⟩,
    ⟨"plus", Id.core.Boolean, { default := some (.scalar (.bool false)) }⟩,
    ⟨"strengh_of_function", Id.x509.StrengthOfFunction, { implicit := some (2, 0), optional := true }⟩,
    ⟨"profile_oid", Id.core.ObjectIdentifier, { implicit := some (2, 1), optional := true }⟩,
    ⟨"profile_url", Id.x509.URIReference, { implicit := some (2, 2), optional := true }⟩,
    ⟨"target_oid", Id.core.ObjectIdentifier, { implicit := some (2, 3), optional := true }⟩,
    ⟨"target_uri", Id.x509.URIReference, { implicit := some (2, 4), optional := true }⟩] (none)

/-- `SecurityLevel` (x509.py:1961-1967) -/
def x509.SecurityLevel : Shape := .leaf (.enumerated (some [(1, "level1"), (2, "level2"), (3, "level3"), (4, "level4")])
    { cls := 0, method := 0, tag := 10 }) []

/-- `FIPSLevel` (x509.py:1970-1975) -/
def x509.FIPSLevel : Shape := .seq { cls := 0, method := 1, tag := 16 } [] false [
    ⟨"version", Id.core.IA5String, {}⟩,
    ⟨"level", Id.x509.SecurityLevel, {}⟩,
    ⟨"plus", Id.core.Boolean, { default := some (.scalar (.bool false)) }⟩] (none)

/-- `TPMSecurityAssertions` (x509.py:1978-1989) -/
def x509.TPMSecurityAssertions : Shape := .seq { cls := 0, method := 1, tag := 16 } [] false [
    ⟨"version", Id.x509.Version, { default := some (.scalar (.str "v1".toList)) }⟩,
    ⟨"field_upgradable", Id.core.Boolean, { default := some (.scalar (.bool false)) }⟩,
    ⟨"ek_generation_type", Id.x509.EKGenerationType, { implicit := some (2, 0), optional := true }⟩,
    ⟨"ek_generation_location", Id.x509.EKGenerationLocation, { implicit := some (2, 1), optional := true }⟩,
    ⟨"ek_certificate_generation_location", Id.x509.EKCertificateGenerationLocation, { implicit := some (2, 2), optional := true }⟩,
    ⟨"cc_info", Id.x509.CommonCriteriaMeasures, { implicit := some (2, 3), optional := true }⟩,
    ⟨"fips_level", Id.x509.FIPSLevel, { implicit := some (2, 4), optional := true }⟩,
    ⟨"iso_9000_certified", Id.core.Boolean, { implicit := some (2, 5), default := some (.scalar (.bool false)) }⟩,
    ⟨"iso_9000_uri", Id.core.IA5String, { optional := true }⟩] (none)

/-- `SetOfTPMSecurityAssertions` (x509.py:1992-1993) -/
def x509.SetOfTPMSecurityAssertions : Shape := .seqOf { cls := 0, method := 1, tag := 17 } [] true (some Id.x509.TPMSecurityAssertions)

/-- `SubjectDirectoryAttributeId` (x509.py:1996-2012) -/
def x509.SubjectDirectoryAttributeId : Shape := .leaf (.oid ⟨some [("2.5.4.52".toList, "supported_algorithms".toList), ("2.23.133.2.16".toList,
    "tpm_specification".toList), ("2.23.133.2.17".toList, "tcg_platform_specification".toList), ("2.23.133.2.18".toList,
    "tpm_security_assertions".toList), ("1.3.6.1.5.5.7.9.1".toList, "pda_date_of_birth".toList), ("1.3.6.1.5.5.7.9.2".toList,
    "pda_place_of_birth".toList), ("1.3.6.1.5.5.7.9.3".toList, "pda_gender".toList), ("1.3.6.1.5.5.7.9.4".toList,
    "pda_country_of_citizenship".toList), ("1.3.6.1.5.5.7.9.5".toList, "pda_country_of_residence".toList), ("1.2.840.113533.7.68.29".toList,
    "entrust_user_role".toList)], none, false⟩ { cls := 0, method := 0, tag := 6 }) []

/-- `SetOfGeneralizedTime` (x509.py:2015-2016) -/
def x509.SetOfGeneralizedTime : Shape := .seqOf { cls := 0, method := 1, tag := 17 } [] true (some Id.core.GeneralizedTime)

/-- `SetOfDirectoryString` (x509.py:2019-2020) -/
def x509.SetOfDirectoryString : Shape := .seqOf { cls := 0, method := 1, tag := 17 } [] true (some Id.x509.DirectoryString)

/-- `SetOfPrintableString` (x509.py:2023-2024) -/
def x509.SetOfPrintableString : Shape := .seqOf { cls := 0, method := 1, tag := 17 } [] true (some Id.core.PrintableString)

/-- `SupportedAlgorithm` (x509.py:2027-2032) -/
def x509.SupportedAlgorithm : Shape := .seq { cls := 0, method := 1, tag := 16 } [] false [
    ⟨"algorithm_identifier", Id.algos.AnyAlgorithmIdentifier, {}⟩,
    ⟨"intended_usage", Id.x509.KeyUsage, { explicit := [(2, 0)], optional := true }⟩,
    ⟨"intended_certificate_policies", Id.x509.CertificatePolicies, { explicit := [(2, 1)], optional := true }⟩] (none)

/-- `SetOfSupportedAlgorithm` (x509.py:2035-2036) -/
def x509.SetOfSupportedAlgorithm : Shape := .seqOf { cls := 0, method := 1, tag := 17 } [] true (some Id.x509.SupportedAlgorithm)

/-- `SubjectDirectoryAttribute` (x509.py:2039-2066) -/
def x509.SubjectDirectoryAttribute : Shape := .seq { cls := 0, method := 1, tag := 16 } [] false [
    ⟨"type", Id.x509.SubjectDirectoryAttributeId, {}⟩,
    ⟨"values", Id.core.Any, {}⟩] (some ⟨0, none, 1, [("supported_algorithms".toList, .value Id.x509.SetOfSupportedAlgorithm),
      ("tpm_specification".toList, .value Id.x509.SetOfTPMSpecification), ("tcg_platform_specification".toList, .value
      Id.x509.SetOfTCGPlatformSpecification), ("tpm_security_assertions".toList, .value Id.x509.SetOfTPMSecurityAssertions),
      ("pda_date_of_birth".toList, .value Id.x509.SetOfGeneralizedTime), ("pda_place_of_birth".toList, .value Id.x509.SetOfDirectoryString),
      ("pda_gender".toList, .value Id.x509.SetOfPrintableString), ("pda_country_of_citizenship".toList, .value Id.x509.SetOfPrintableString),
      ("pda_country_of_residence".toList, .value Id.x509.SetOfPrintableString)], .ok (.value Id.core.SetOf)⟩)

/-- `SubjectDirectoryAttributes` (x509.py:2069-2070) -/
def x509.SubjectDirectoryAttributes : Shape := .seqOf { cls := 0, method := 1, tag := 16 } [] false (some Id.x509.SubjectDirectoryAttribute)

/-- `ExtensionId` (x509.py:2073-2102, pdf.py:76, pdf.py:77, pdf.py:78) -/
def x509.ExtensionId : Shape := .leaf (.oid ⟨some [("2.5.29.9".toList, "subject_directory_attributes".toList), ("2.5.29.14".toList,
    "key_identifier".toList), ("2.5.29.15".toList, "key_usage".toList), ("2.5.29.16".toList, "private_key_usage_period".toList), ("2.5.29.17".toList,
    "subject_alt_name".toList), ("2.5.29.18".toList, "issuer_alt_name".toList), ("2.5.29.19".toList, "basic_constraints".toList), ("2.5.29.30".toList,
    "name_constraints".toList), ("2.5.29.31".toList, "crl_distribution_points".toList), ("2.5.29.32".toList, "certificate_policies".toList),
    ("2.5.29.33".toList, "policy_mappings".toList), ("2.5.29.35".toList, "authority_key_identifier".toList), ("2.5.29.36".toList,
    "policy_constraints".toList), ("2.5.29.37".toList, "extended_key_usage".toList), ("2.5.29.46".toList, "freshest_crl".toList), ("2.5.29.54".toList,
    "inhibit_any_policy".toList), ("1.3.6.1.5.5.7.1.1".toList, "authority_information_access".toList), ("1.3.6.1.5.5.7.1.11".toList,
    "subject_information_access".toList), ("1.3.6.1.5.5.7.1.24".toList, "tls_feature".toList), ("1.3.6.1.5.5.7.48.1.5".toList,
    "ocsp_no_check".toList), ("1.2.840.113533.7.65.0".toList, "entrust_version_extension".toList), ("2.16.840.1.113730.1.1".toList,
    "netscape_certificate_type".toList), ("1.3.6.1.4.1.11129.2.4.2".toList, "signed_certificate_timestamp_list".toList),
    ("1.3.6.1.4.1.311.20.2".toList, "microsoft_enroll_certtype".toList), ("1.2.840.113583.1.1.9.2".toList, "adobe_archive_rev_info".toList),
    ("1.2.840.113583.1.1.9.1".toList, "adobe_timestamp".toList), ("1.2.840.113583.1.1.10".toList, "adobe_ppklite_credential".toList)], none, false⟩
    { cls := 0, method := 0, tag := 6 }) []

/-- `Extension` (x509.py:2105-2140, pdf.py:79, pdf.py:80, pdf.py:81) -/
def x509.Extension : Shape := .seq { cls := 0, method := 1, tag := 16 } [] false [
    ⟨"extn_id", Id.x509.ExtensionId, {}⟩,
    ⟨"critical", Id.core.Boolean, { default := some (.scalar (.bool false)) }⟩,
    ⟨"extn_value", Id.core.ParsableOctetString, {}⟩] (some ⟨0, none, 2, [("subject_directory_attributes".toList, .value
      Id.x509.SubjectDirectoryAttributes), ("key_identifier".toList, .value Id.core.OctetString), ("key_usage".toList, .value Id.x509.KeyUsage),
      ("private_key_usage_period".toList, .value Id.x509.PrivateKeyUsagePeriod), ("subject_alt_name".toList, .value Id.x509.GeneralNames),
      ("issuer_alt_name".toList, .value Id.x509.GeneralNames), ("basic_constraints".toList, .value Id.x509.BasicConstraints),
      ("name_constraints".toList, .value Id.x509.NameConstraints), ("crl_distribution_points".toList, .value Id.x509.CRLDistributionPoints),
      ("certificate_policies".toList, .value Id.x509.CertificatePolicies), ("policy_mappings".toList, .value Id.x509.PolicyMappings),
      ("authority_key_identifier".toList, .value Id.x509.AuthorityKeyIdentifier), ("policy_constraints".toList, .value Id.x509.PolicyConstraints),
      ("extended_key_usage".toList, .value Id.x509.ExtKeyUsageSyntax), ("freshest_crl".toList, .value Id.x509.CRLDistributionPoints),
      ("inhibit_any_policy".toList, .value Id.core.Integer), ("authority_information_access".toList, .value Id.x509.AuthorityInfoAccessSyntax),
      ("subject_information_access".toList, .value Id.x509.SubjectInfoAccessSyntax), ("tls_feature".toList, .value Id.x509.Features),
      ("ocsp_no_check".toList, .value Id.core.Null), ("entrust_version_extension".toList, .value Id.x509.EntrustVersionInfo),
      ("netscape_certificate_type".toList, .value Id.x509.NetscapeCertificateType), ("signed_certificate_timestamp_list".toList, .value
      Id.core.OctetString), ("microsoft_enroll_certtype".toList, .value Id.core.BMPString), ("adobe_archive_rev_info".toList, .value
      Id.pdf.AdobeArchiveRevInfo), ("adobe_timestamp".toList, .value Id.pdf.AdobeTimestamp), ("adobe_ppklite_credential".toList, .value
      Id.core.Null)], .ok .same⟩)

/-- `Extensions` (x509.py:2143-2144) -/
def x509.Extensions : Shape := .seqOf { cls := 0, method := 1, tag := 16 } [] false (some Id.x509.Extension)

/-- `TbsCertificate` (x509.py:2147-2159) -/
def x509.TbsCertificate : Shape := .seq { cls := 0, method := 1, tag := 16 } [] false [
    ⟨"version", Id.x509.Version, { explicit := [(2, 0)], default := some (.scalar (.str "v1".toList)) }⟩,
    ⟨"serial_number", Id.core.Integer, {}⟩,
    ⟨"signature", Id.algos.SignedDigestAlgorithm, {}⟩,
    ⟨"issuer", Id.x509.Name, {}⟩,
    ⟨"validity", Id.x509.Validity, {}⟩,
    ⟨"subject", Id.x509.Name, {}⟩,
    ⟨"subject_public_key_info", Id.keys.PublicKeyInfo, {}⟩,
    ⟨"issuer_unique_id", Id.core.OctetBitString, { implicit := some (2, 1), optional := true }⟩,
    ⟨"subject_unique_id", Id.core.OctetBitString, { implicit := some (2, 2), optional := true }⟩,
    ⟨"extensions", Id.x509.Extensions, { explicit := [(2, 3)], optional := true }⟩] (none)

/-- `Certificate` (x509.py:2162-2200) -/
def x509.Certificate : Shape := .seq { cls := 0, method := 1, tag := 16 } [] false [
    ⟨"tbs_certificate", Id.x509.TbsCertificate, {}⟩,
    ⟨"signature_algorithm", Id.algos.SignedDigestAlgorithm, {}⟩,
    ⟨"signature_value", Id.core.OctetBitString, {}⟩] (none)

/-- `KeyPurposeIdentifiers` (x509.py:3035-3036) -/
def x509.KeyPurposeIdentifiers : Shape := .seqOf { cls := 0, method := 1, tag := 16 } [] false (some Id.x509.KeyPurposeId)

/-- `SequenceOfAlgorithmIdentifiers` (x509.py:3039-3040) -/
def x509.SequenceOfAlgorithmIdentifiers : Shape := .seqOf { cls := 0, method := 1, tag := 16 } [] false (some Id.algos.AlgorithmIdentifier)

/-- `CertificateAux` (x509.py:3043-3050) -/
def x509.CertificateAux : Shape := .seq { cls := 0, method := 1, tag := 16 } [] false [
    ⟨"trust", Id.x509.KeyPurposeIdentifiers, { optional := true }⟩,
    ⟨"reject", Id.x509.KeyPurposeIdentifiers, { implicit := some (2, 0), optional := true }⟩,
    ⟨"alias", Id.core.UTF8String, { optional := true }⟩,
    ⟨"keyid", Id.core.OctetString, { optional := true }⟩,
    ⟨"other", Id.x509.SequenceOfAlgorithmIdentifiers, { implicit := some (2, 1), optional := true }⟩] (none)

/-- `Version` (crl.py:43-47) -/
def crl.Version : Shape := .leaf (.integer (some [(0, "v1"), (1, "v2")]) { cls := 0, method := 0, tag := 2 }) []

/-- `IssuingDistributionPoint` (crl.py:50-58) -/
def crl.IssuingDistributionPoint : Shape := .seq { cls := 0, method := 1, tag := 16 } [] false [
    ⟨"distribution_point", Id.x509.DistributionPointName, { explicit := [(2, 0)], optional := true }⟩,
    ⟨"only_contains_user_certs", Id.core.Boolean, { implicit := some (2, 1), default := some (.scalar (.bool false)) }⟩,
    ⟨"only_contains_ca_certs", Id.core.Boolean, { implicit := some (2, 2), default := some (.scalar (.bool false)) }⟩,
    ⟨"only_some_reasons", Id.x509.ReasonFlags, { implicit := some (2, 3), optional := true }⟩,
    ⟨"indirect_crl", Id.core.Boolean, { implicit := some (2, 4), default := some (.scalar (.bool false)) }⟩,
    ⟨"only_contains_attribute_certs", Id.core.Boolean, { implicit := some (2, 5), default := some (.scalar (.bool false)) }⟩] (none)

/-- `TBSCertListExtensionId` (crl.py:61-70) -/
def crl.TBSCertListExtensionId : Shape := .leaf (.oid ⟨some [("2.5.29.18".toList, "issuer_alt_name".toList), ("2.5.29.20".toList,
    "crl_number".toList), ("2.5.29.27".toList, "delta_crl_indicator".toList), ("2.5.29.28".toList, "issuing_distribution_point".toList),
    ("2.5.29.35".toList, "authority_key_identifier".toList), ("2.5.29.46".toList, "freshest_crl".toList), ("1.3.6.1.5.5.7.1.1".toList,
    "authority_information_access".toList)], none, false⟩ { cls := 0, method := 0, tag := 6 }) []

/-- `TBSCertListExtension` (crl.py:73-89) -/
def crl.TBSCertListExtension : Shape := .seq { cls := 0, method := 1, tag := 16 } [] false [
    ⟨"extn_id", Id.crl.TBSCertListExtensionId, {}⟩,
    ⟨"critical", Id.core.Boolean, { default := some (.scalar (.bool false)) }⟩,
    ⟨"extn_value", Id.core.ParsableOctetString, {}⟩] (some ⟨0, none, 2, [("issuer_alt_name".toList, .value Id.x509.GeneralNames),
      ("crl_number".toList, .value Id.core.Integer), ("delta_crl_indicator".toList, .value Id.core.Integer), ("issuing_distribution_point".toList,
      .value Id.crl.IssuingDistributionPoint), ("authority_key_identifier".toList, .value Id.x509.AuthorityKeyIdentifier), ("freshest_crl".toList,
      .value Id.x509.CRLDistributionPoints), ("authority_information_access".toList, .value Id.x509.AuthorityInfoAccessSyntax)], .ok .same⟩)

/-- `TBSCertListExtensions` (crl.py:92-93) -/
def crl.TBSCertListExtensions : Shape := .seqOf { cls := 0, method := 1, tag := 16 } [] false (some Id.crl.TBSCertListExtension)

/-- `CRLReason` (crl.py:96-108) -/
def crl.CRLReason : Shape := .leaf (.enumerated (some [(0, "unspecified"), (1, "key_compromise"), (2, "ca_compromise"), (3, "affiliation_changed"),
    (4, "superseded"), (5, "cessation_of_operation"), (6, "certificate_hold"), (8, "remove_from_crl"), (9, "privilege_withdrawn"), (10,
    "aa_compromise")]) { cls := 0, method := 0, tag := 10 }) []

/-- `CRLEntryExtensionId` (crl.py:134-140) -/
def crl.CRLEntryExtensionId : Shape := .leaf (.oid ⟨some [("2.5.29.21".toList, "crl_reason".toList), ("2.5.29.23".toList,
    "hold_instruction_code".toList), ("2.5.29.24".toList, "invalidity_date".toList), ("2.5.29.29".toList, "certificate_issuer".toList)], none, false⟩
    { cls := 0, method := 0, tag := 6 }) []

/-- `CRLEntryExtension` (crl.py:143-156) -/
def crl.CRLEntryExtension : Shape := .seq { cls := 0, method := 1, tag := 16 } [] false [
    ⟨"extn_id", Id.crl.CRLEntryExtensionId, {}⟩,
    ⟨"critical", Id.core.Boolean, { default := some (.scalar (.bool false)) }⟩,
    ⟨"extn_value", Id.core.ParsableOctetString, {}⟩] (some ⟨0, none, 2, [("crl_reason".toList, .value Id.crl.CRLReason),
      ("hold_instruction_code".toList, .value Id.core.ObjectIdentifier), ("invalidity_date".toList, .value Id.core.GeneralizedTime),
      ("certificate_issuer".toList, .value Id.x509.GeneralNames)], .ok .same⟩)

/-- `CRLEntryExtensions` (crl.py:159-160) -/
def crl.CRLEntryExtensions : Shape := .seqOf { cls := 0, method := 1, tag := 16 } [] false (some Id.crl.CRLEntryExtension)

/-- `RevokedCertificate` (crl.py:163-175) -/
def crl.RevokedCertificate : Shape := .seq { cls := 0, method := 1, tag := 16 } [] false [
    ⟨"user_certificate", Id.core.Integer, {}⟩,
    ⟨"revocation_date", Id.x509.Time, {}⟩,
    ⟨"crl_entry_extensions", Id.crl.CRLEntryExtensions, { optional := true }⟩] (none)

/-- `RevokedCertificates` (crl.py:270-271) -/
def crl.RevokedCertificates : Shape := .seqOf { cls := 0, method := 1, tag := 16 } [] false (some Id.crl.RevokedCertificate)

/-- `TbsCertList` (crl.py:274-283) -/
def crl.TbsCertList : Shape := .seq { cls := 0, method := 1, tag := 16 } [] false [
    ⟨"version", Id.crl.Version, { optional := true }⟩,
    ⟨"signature", Id.algos.SignedDigestAlgorithm, {}⟩,
    ⟨"issuer", Id.x509.Name, {}⟩,
    ⟨"this_update", Id.x509.Time, {}⟩,
    ⟨"next_update", Id.x509.Time, { optional := true }⟩,
    ⟨"revoked_certificates", Id.crl.RevokedCertificates, { optional := true }⟩,
    ⟨"crl_extensions", Id.crl.TBSCertListExtensions, { explicit := [(2, 0)], optional := true }⟩] (none)

/-- `CertificateList` (crl.py:286-305) -/
def crl.CertificateList : Shape := .seq { cls := 0, method := 1, tag := 16 } [] false [
    ⟨"tbs_cert_list", Id.crl.TbsCertList, {}⟩,
    ⟨"signature_algorithm", Id.algos.SignedDigestAlgorithm, {}⟩,
    ⟨"signature", Id.core.OctetBitString, {}⟩] (none)

/-- `Version` (ocsp.py:40-43) -/
def ocsp.Version : Shape := .leaf (.integer (some [(0, "v1")]) { cls := 0, method := 0, tag := 2 }) []

/-- `CertId` (ocsp.py:46-52) -/
def ocsp.CertId : Shape := .seq { cls := 0, method := 1, tag := 16 } [] false [
    ⟨"hash_algorithm", Id.algos.DigestAlgorithm, {}⟩,
    ⟨"issuer_name_hash", Id.core.OctetString, {}⟩,
    ⟨"issuer_key_hash", Id.core.OctetString, {}⟩,
    ⟨"serial_number", Id.core.Integer, {}⟩] (none)

/-- `ServiceLocator` (ocsp.py:55-59) -/
def ocsp.ServiceLocator : Shape := .seq { cls := 0, method := 1, tag := 16 } [] false [
    ⟨"issuer", Id.x509.Name, {}⟩,
    ⟨"locator", Id.x509.AuthorityInfoAccessSyntax, {}⟩] (none)

/-- `RequestExtensionId` (ocsp.py:62-65) -/
def ocsp.RequestExtensionId : Shape := .leaf (.oid ⟨some [("1.3.6.1.5.5.7.48.1.7".toList, "service_locator".toList)], none, false⟩
    { cls := 0, method := 0, tag := 6 }) []

/-- `RequestExtension` (ocsp.py:68-78) -/
def ocsp.RequestExtension : Shape := .seq { cls := 0, method := 1, tag := 16 } [] false [
    ⟨"extn_id", Id.ocsp.RequestExtensionId, {}⟩,
    ⟨"critical", Id.core.Boolean, { default := some (.scalar (.bool false)) }⟩,
    ⟨"extn_value", Id.core.ParsableOctetString, {}⟩] (some ⟨0, none, 2, [("service_locator".toList, .value Id.ocsp.ServiceLocator)], .ok .same⟩)

/-- `RequestExtensions` (ocsp.py:81-82) -/
def ocsp.RequestExtensions : Shape := .seqOf { cls := 0, method := 1, tag := 16 } [] false (some Id.ocsp.RequestExtension)

/-- `Request` (ocsp.py:85-93) -/
def ocsp.Request : Shape := .seq { cls := 0, method := 1, tag := 16 } [] false [
    ⟨"req_cert", Id.ocsp.CertId, {}⟩,
    ⟨"single_request_extensions", Id.ocsp.RequestExtensions, { explicit := [(2, 0)], optional := true }⟩] (none)

/-- `Requests` (ocsp.py:142-143) -/
def ocsp.Requests : Shape := .seqOf { cls := 0, method := 1, tag := 16 } [] false (some Id.ocsp.Request)

/-- `ResponseType` (ocsp.py:146-149) -/
def ocsp.ResponseType : Shape := .leaf (.oid ⟨some [("1.3.6.1.5.5.7.48.1.1".toList, "basic_ocsp_response".toList)], none, false⟩
    { cls := 0, method := 0, tag := 6 }) []

/-- `AcceptableResponses` (ocsp.py:152-153) -/
def ocsp.AcceptableResponses : Shape := .seqOf { cls := 0, method := 1, tag := 16 } [] false (some Id.ocsp.ResponseType)

/-- `PreferredSignatureAlgorithm` (ocsp.py:156-160) -/
def ocsp.PreferredSignatureAlgorithm : Shape := .seq { cls := 0, method := 1, tag := 16 } [] false [
    ⟨"sig_identifier", Id.algos.SignedDigestAlgorithm, {}⟩,
    ⟨"cert_identifier", Id.keys.PublicKeyAlgorithm, { optional := true }⟩] (none)

/-- `PreferredSignatureAlgorithms` (ocsp.py:163-164) -/
def ocsp.PreferredSignatureAlgorithms : Shape := .seqOf { cls := 0, method := 1, tag := 16 } [] false (some Id.ocsp.PreferredSignatureAlgorithm)

/-- `TBSRequestExtensionId` (ocsp.py:167-172) -/
def ocsp.TBSRequestExtensionId : Shape := .leaf (.oid ⟨some [("1.3.6.1.5.5.7.48.1.2".toList, "nonce".toList), ("1.3.6.1.5.5.7.48.1.4".toList,
    "acceptable_responses".toList), ("1.3.6.1.5.5.7.48.1.8".toList, "preferred_signature_algorithms".toList)], none, false⟩
    { cls := 0, method := 0, tag := 6 }) []

/-- `TBSRequestExtension` (ocsp.py:175-187) -/
def ocsp.TBSRequestExtension : Shape := .seq { cls := 0, method := 1, tag := 16 } [] false [
    ⟨"extn_id", Id.ocsp.TBSRequestExtensionId, {}⟩,
    ⟨"critical", Id.core.Boolean, { default := some (.scalar (.bool false)) }⟩,
    ⟨"extn_value", Id.core.ParsableOctetString, {}⟩] (some ⟨0, none, 2, [("nonce".toList, .value Id.core.OctetString), ("acceptable_responses".toList,
      .value Id.ocsp.AcceptableResponses), ("preferred_signature_algorithms".toList, .value Id.ocsp.PreferredSignatureAlgorithms)], .ok .same⟩)

/-- `TBSRequestExtensions` (ocsp.py:190-191) -/
def ocsp.TBSRequestExtensions : Shape := .seqOf { cls := 0, method := 1, tag := 16 } [] false (some Id.ocsp.TBSRequestExtension)

/-- `TBSRequest` (ocsp.py:194-200) -/
def ocsp.TBSRequest : Shape := .seq { cls := 0, method := 1, tag := 16 } [] false [
    ⟨"version", Id.ocsp.Version, { explicit := [(2, 0)], default := some (.scalar (.str "v1".toList)) }⟩,
    ⟨"requestor_name", Id.x509.GeneralName, { explicit := [(2, 1)], optional := true }⟩,
    ⟨"request_list", Id.ocsp.Requests, {}⟩,
    ⟨"request_extensions", Id.ocsp.TBSRequestExtensions, { explicit := [(2, 2)], optional := true }⟩] (none)

/-- `Certificates` (ocsp.py:203-204) -/
def ocsp.Certificates : Shape := .seqOf { cls := 0, method := 1, tag := 16 } [] false (some Id.x509.Certificate)

/-- `Signature` (ocsp.py:207-212) -/
def ocsp.Signature : Shape := .seq { cls := 0, method := 1, tag := 16 } [] false [
    ⟨"signature_algorithm", Id.algos.SignedDigestAlgorithm, {}⟩,
    ⟨"signature", Id.core.OctetBitString, {}⟩,
    ⟨"certs", Id.ocsp.Certificates, { explicit := [(2, 0)], optional := true }⟩] (none)

/-- `OCSPRequest` (ocsp.py:215-225) -/
def ocsp.OCSPRequest : Shape := .seq { cls := 0, method := 1, tag := 16 } [] false [
    ⟨"tbs_request", Id.ocsp.TBSRequest, {}⟩,
    ⟨"optional_signature", Id.ocsp.Signature, { explicit := [(2, 0)], optional := true }⟩] (none)

/-- `OCSPResponseStatus` (ocsp.py:305-313) -/
def ocsp.OCSPResponseStatus : Shape := .leaf (.enumerated (some [(0, "successful"), (1, "malformed_request"), (2, "internal_error"), (3, "try_later"),
    (5, "sign_required"), (6, "unauthorized")]) { cls := 0, method := 0, tag := 10 }) []

/-- `ResponderId` (ocsp.py:316-320) -/
def ocsp.ResponderId : Shape := .choice [] none [
    ⟨"by_name", Id.x509.Name, { explicit := [(2, 1)] }⟩,
    ⟨"by_key", Id.core.OctetString, { explicit := [(2, 2)] }⟩]

/-- `StatusGood` (ocsp.py:324-324) -/
def ocsp.StatusGood : Shape := .leaf (.null { cls := 0, method := 0, tag := 5, contents := some [] }) []

/-- `StatusUnknown` (ocsp.py:349-349) -/
def ocsp.StatusUnknown : Shape := .leaf (.null { cls := 0, method := 0, tag := 5, contents := some [] }) []

/-- `RevokedInfo` (ocsp.py:373-377) -/
def ocsp.RevokedInfo : Shape := .seq { cls := 0, method := 1, tag := 16 } [] false [
    ⟨"revocation_time", Id.core.GeneralizedTime, {}⟩,
    ⟨"revocation_reason", Id.crl.CRLReason, { explicit := [(2, 0)], optional := true }⟩] (none)

/-- `CertStatus` (ocsp.py:380-385) -/
def ocsp.CertStatus : Shape := .choice [] none [
    ⟨"good", Id.ocsp.StatusGood, { implicit := some (2, 0) }⟩,
    ⟨"revoked", Id.ocsp.RevokedInfo, { implicit := some (2, 1) }⟩,
    ⟨"unknown", Id.ocsp.StatusUnknown, { implicit := some (2, 2) }⟩]

/-- `CrlId` (ocsp.py:388-393) -/
def ocsp.CrlId : Shape := .seq { cls := 0, method := 1, tag := 16 } [] false [
    ⟨"crl_url", Id.core.IA5String, { explicit := [(2, 0)], optional := true }⟩,
    ⟨"crl_num", Id.core.Integer, { explicit := [(2, 1)], optional := true }⟩,
    ⟨"crl_time", Id.core.GeneralizedTime, { explicit := [(2, 2)], optional := true }⟩] (none)

/-- `SingleResponseExtensionId` (ocsp.py:396-407) -/
def ocsp.SingleResponseExtensionId : Shape := .leaf (.oid ⟨some [("1.3.6.1.5.5.7.48.1.3".toList, "crl".toList), ("1.3.6.1.5.5.7.48.1.6".toList,
    "archive_cutoff".toList), ("2.5.29.21".toList, "crl_reason".toList), ("2.5.29.24".toList, "invalidity_date".toList), ("2.5.29.29".toList,
    "certificate_issuer".toList), ("1.3.6.1.4.1.11129.2.4.5".toList, "signed_certificate_timestamp_list".toList)], none, false⟩
    { cls := 0, method := 0, tag := 6 }) []

/-- `SingleResponseExtension` (ocsp.py:410-425) -/
def ocsp.SingleResponseExtension : Shape := .seq { cls := 0, method := 1, tag := 16 } [] false [
    ⟨"extn_id", Id.ocsp.SingleResponseExtensionId, {}⟩,
    ⟨"critical", Id.core.Boolean, { default := some (.scalar (.bool false)) }⟩,
    ⟨"extn_value", Id.core.ParsableOctetString, {}⟩] (some ⟨0, none, 2, [("crl".toList, .value Id.ocsp.CrlId), ("archive_cutoff".toList, .value
      Id.core.GeneralizedTime), ("crl_reason".toList, .value Id.crl.CRLReason), ("invalidity_date".toList, .value Id.core.GeneralizedTime),
      ("certificate_issuer".toList, .value Id.x509.GeneralNames), ("signed_certificate_timestamp_list".toList, .value Id.core.OctetString)], .ok
      .same⟩)

/-- `SingleResponseExtensions` (ocsp.py:428-429) -/
def ocsp.SingleResponseExtensions : Shape := .seqOf { cls := 0, method := 1, tag := 16 } [] false (some Id.ocsp.SingleResponseExtension)

/-- `SingleResponse` (ocsp.py:432-447) -/
def ocsp.SingleResponse : Shape := .seq { cls := 0, method := 1, tag := 16 } [] false [
    ⟨"cert_id", Id.ocsp.CertId, {}⟩,
    ⟨"cert_status", Id.ocsp.CertStatus, {}⟩,
    ⟨"this_update", Id.core.GeneralizedTime, {}⟩,
    ⟨"next_update", Id.core.GeneralizedTime, { explicit := [(2, 0)], optional := true }⟩,
    ⟨"single_extensions", Id.ocsp.SingleResponseExtensions, { explicit := [(2, 1)], optional := true }⟩] (none)

/-- `Responses` (ocsp.py:552-553) -/
def ocsp.Responses : Shape := .seqOf { cls := 0, method := 1, tag := 16 } [] false (some Id.ocsp.SingleResponse)

/-- `ResponseDataExtensionId` (ocsp.py:556-560) -/
def ocsp.ResponseDataExtensionId : Shape := .leaf (.oid ⟨some [("1.3.6.1.5.5.7.48.1.2".toList, "nonce".toList), ("1.3.6.1.5.5.7.48.1.9".toList,
    "extended_revoke".toList)], none, false⟩ { cls := 0, method := 0, tag := 6 }) []

/-- `ResponseDataExtension` (ocsp.py:563-574) -/
def ocsp.ResponseDataExtension : Shape := .seq { cls := 0, method := 1, tag := 16 } [] false [
    ⟨"extn_id", Id.ocsp.ResponseDataExtensionId, {}⟩,
    ⟨"critical", Id.core.Boolean, { default := some (.scalar (.bool false)) }⟩,
    ⟨"extn_value", Id.core.ParsableOctetString, {}⟩] (some ⟨0, none, 2, [("nonce".toList, .value Id.core.OctetString), ("extended_revoke".toList,
      .value Id.core.Null)], .ok .same⟩)

/-- `ResponseDataExtensions` (ocsp.py:577-578) -/
def ocsp.ResponseDataExtensions : Shape := .seqOf { cls := 0, method := 1, tag := 16 } [] false (some Id.ocsp.ResponseDataExtension)

/-- `ResponseData` (ocsp.py:581-588) -/
def ocsp.ResponseData : Shape := .seq { cls := 0, method := 1, tag := 16 } [] false [
    ⟨"version", Id.ocsp.Version, { explicit := [(2, 0)], default := some (.scalar (.str "v1".toList)) }⟩,
    ⟨"responder_id", Id.ocsp.ResponderId, {}⟩,
    ⟨"produced_at", Id.core.GeneralizedTime, {}⟩,
    ⟨"responses", Id.ocsp.Responses, {}⟩,
    ⟨"response_extensions", Id.ocsp.ResponseDataExtensions, { explicit := [(2, 1)], optional := true }⟩] (none)

/-- `BasicOCSPResponse` (ocsp.py:591-597) -/
def ocsp.BasicOCSPResponse : Shape := .seq { cls := 0, method := 1, tag := 16 } [] false [
    ⟨"tbs_response_data", Id.ocsp.ResponseData, {}⟩,
    ⟨"signature_algorithm", Id.algos.SignedDigestAlgorithm, {}⟩,
    ⟨"signature", Id.core.OctetBitString, {}⟩,
    ⟨"certs", Id.ocsp.Certificates, { explicit := [(2, 0)], optional := true }⟩] (none)

/-- `ResponseBytes` (ocsp.py:600-609) -/
def ocsp.ResponseBytes : Shape := .seq { cls := 0, method := 1, tag := 16 } [] false [
    ⟨"response_type", Id.ocsp.ResponseType, {}⟩,
    ⟨"response", Id.core.ParsableOctetString, {}⟩] (some ⟨0, none, 1, [("basic_ocsp_response".toList, .value Id.ocsp.BasicOCSPResponse)], .ok .same⟩)

/-- `OCSPResponse` (ocsp.py:612-621) -/
def ocsp.OCSPResponse : Shape := .seq { cls := 0, method := 1, tag := 16 } [] false [
    ⟨"response_status", Id.ocsp.OCSPResponseStatus, {}⟩,
    ⟨"response_bytes", Id.ocsp.ResponseBytes, { explicit := [(2, 0)], optional := true }⟩] (none)

/-- `Version` (csr.py:34-37) -/
def csr.Version : Shape := .leaf (.integer (some [(0, "v1")]) { cls := 0, method := 0, tag := 2 }) []

/-- `CSRAttributeType` (csr.py:40-51) -/
def csr.CSRAttributeType : Shape := .leaf (.oid ⟨some [("1.2.840.113549.1.9.7".toList, "challenge_password".toList), ("1.2.840.113549.1.9.9".toList,
    "extended_certificate_attributes".toList), ("1.2.840.113549.1.9.14".toList, "extension_request".toList), ("1.3.6.1.4.1.311.13.2.2".toList,
    "microsoft_enrollment_csp_provider".toList), ("1.3.6.1.4.1.311.13.2.3".toList, "microsoft_os_version".toList), ("1.3.6.1.4.1.311.21.20".toList,
    "microsoft_request_client_info".toList)], none, false⟩ { cls := 0, method := 0, tag := 6 }) []

/-- `SetOfDirectoryString` (csr.py:54-55) -/
def csr.SetOfDirectoryString : Shape := .seqOf { cls := 0, method := 1, tag := 17 } [] true (some Id.x509.DirectoryString)

/-- `Attribute` (csr.py:58-62) -/
def csr.Attribute : Shape := .seq { cls := 0, method := 1, tag := 16 } [] false [
    ⟨"type", Id.core.ObjectIdentifier, {}⟩,
    ⟨"values", Id.spec.SetOfAny, {}⟩] (none)

/-- `SetOfAttributes` (csr.py:65-66) -/
def csr.SetOfAttributes : Shape := .seqOf { cls := 0, method := 1, tag := 17 } [] true (some Id.csr.Attribute)

/-- `SetOfExtensions` (csr.py:69-70) -/
def csr.SetOfExtensions : Shape := .seqOf { cls := 0, method := 1, tag := 17 } [] true (some Id.x509.Extensions)

/-- `MicrosoftEnrollmentCSProvider` (csr.py:73-78) -/
def csr.MicrosoftEnrollmentCSProvider : Shape := .seq { cls := 0, method := 1, tag := 16 } [] false [
    ⟨"keyspec", Id.core.Integer, {}⟩,
    ⟨"cspname", Id.core.BMPString, {}⟩,
    ⟨"signature", Id.core.BitString, {}⟩] (none)

/-- `SetOfMicrosoftEnrollmentCSProvider` (csr.py:81-82) -/
def csr.SetOfMicrosoftEnrollmentCSProvider : Shape := .seqOf { cls := 0, method := 1, tag := 17 } [] true (some Id.csr.MicrosoftEnrollmentCSProvider)

/-- `MicrosoftRequestClientInfo` (csr.py:85-91) -/
def csr.MicrosoftRequestClientInfo : Shape := .seq { cls := 0, method := 1, tag := 16 } [] false [
    ⟨"clientid", Id.core.Integer, {}⟩,
    ⟨"machinename", Id.core.UTF8String, {}⟩,
    ⟨"username", Id.core.UTF8String, {}⟩,
    ⟨"processname", Id.core.UTF8String, {}⟩] (none)

/-- `SetOfMicrosoftRequestClientInfo` (csr.py:94-95) -/
def csr.SetOfMicrosoftRequestClientInfo : Shape := .seqOf { cls := 0, method := 1, tag := 17 } [] true (some Id.csr.MicrosoftRequestClientInfo)

/-- `CRIAttribute` (csr.py:98-112) -/
def csr.CRIAttribute : Shape := .seq { cls := 0, method := 1, tag := 16 } [] false [
    ⟨"type", Id.csr.CSRAttributeType, {}⟩,
    ⟨"values", Id.core.Any, {}⟩] (some ⟨0, none, 1, [("challenge_password".toList, .value Id.csr.SetOfDirectoryString),
      ("extended_certificate_attributes".toList, .value Id.csr.SetOfAttributes), ("extension_request".toList, .value Id.csr.SetOfExtensions),
      ("microsoft_enrollment_csp_provider".toList, .value Id.csr.SetOfMicrosoftEnrollmentCSProvider), ("microsoft_os_version".toList, .value
      Id.csr.SetOfDirectoryString), ("microsoft_request_client_info".toList, .value Id.csr.SetOfMicrosoftRequestClientInfo)], .ok .same⟩)

/-- `CRIAttributes` (csr.py:115-116) -/
def csr.CRIAttributes : Shape := .seqOf { cls := 0, method := 1, tag := 17 } [] true (some Id.csr.CRIAttribute)

/-- `CertificationRequestInfo` (csr.py:119-125) -/
def csr.CertificationRequestInfo : Shape := .seq { cls := 0, method := 1, tag := 16 } [] false [
    ⟨"version", Id.csr.Version, {}⟩,
    ⟨"subject", Id.x509.Name, {}⟩,
    ⟨"subject_pk_info", Id.keys.PublicKeyInfo, {}⟩,
    ⟨"attributes", Id.csr.CRIAttributes, { implicit := some (2, 0), optional := true }⟩] (none)

/-- `CertificationRequest` (csr.py:128-133) -/
def csr.CertificationRequest : Shape := .seq { cls := 0, method := 1, tag := 16 } [] false [
    ⟨"certification_request_info", Id.csr.CertificationRequestInfo, {}⟩,
    ⟨"signature_algorithm", Id.algos.SignedDigestAlgorithm, {}⟩,
    ⟨"signature", Id.core.OctetBitString, {}⟩] (none)

/-- `ExtendedCertificateInfo` (cms.py:65-70) -/
def cms.ExtendedCertificateInfo : Shape := .seq { cls := 0, method := 1, tag := 16 } [] false [
    ⟨"version", Id.core.Integer, {}⟩,
    ⟨"certificate", Id.x509.Certificate, {}⟩,
    ⟨"attributes", Id.x509.Attributes, {}⟩] (none)

/-- `ExtendedCertificate` (cms.py:73-78) -/
def cms.ExtendedCertificate : Shape := .seq { cls := 0, method := 1, tag := 16 } [] false [
    ⟨"extended_certificate_info", Id.cms.ExtendedCertificateInfo, {}⟩,
    ⟨"signature_algorithm", Id.algos.SignedDigestAlgorithm, {}⟩,
    ⟨"signature", Id.core.OctetBitString, {}⟩] (none)

/-- `CMSVersion` (cms.py:87-95) -/
def cms.CMSVersion : Shape := .leaf (.integer (some [(0, "v0"), (1, "v1"), (2, "v2"), (3, "v3"), (4, "v4"), (5, "v5")])
    { cls := 0, method := 0, tag := 2 }) []

/-- `CMSAttributeType` (cms.py:98-120, pdf.py:83, tsp.py:307, tsp.py:309) -/
def cms.CMSAttributeType : Shape := .leaf (.oid ⟨some [("1.2.840.113549.1.9.3".toList, "content_type".toList), ("1.2.840.113549.1.9.4".toList,
    "message_digest".toList), ("1.2.840.113549.1.9.5".toList, "signing_time".toList), ("1.2.840.113549.1.9.6".toList, "counter_signature".toList),
    ("1.2.840.113549.1.9.15".toList, "smime_capabilities".toList), ("1.2.840.113549.1.9.16.2.11".toList, "encrypt_key_pref".toList),
    ("1.2.840.113549.1.9.16.2.14".toList, "signature_time_stamp_token".toList), ("1.2.840.113549.1.9.52".toList, "cms_algorithm_protection".toList),
    ("1.3.6.1.4.1.311.2.4.1".toList, "microsoft_nested_signature".toList), ("1.3.6.1.4.1.311.3.3.1".toList, "microsoft_time_stamp_token".toList),
    ("1.2.840.113583.1.1.8".toList, "adobe_revocation_info_archival".toList), ("1.2.840.113549.1.9.16.2.12".toList, "signing_certificate".toList),
    ("1.2.840.113549.1.9.16.2.47".toList, "signing_certificate_v2".toList)], none, false⟩ { cls := 0, method := 0, tag := 6 }) []

/-- `Time` (cms.py:123-127) -/
def cms.Time : Shape := .choice [] none [
    ⟨"utc_time", Id.core.UTCTime, {}⟩,
    ⟨"generalized_time", Id.core.GeneralizedTime, {}⟩]

/-- `ContentType` (cms.py:130-141, tsp.py:305, tsp.py:306) -/
def cms.ContentType : Shape := .leaf (.oid ⟨some [("1.2.840.113549.1.7.1".toList, "data".toList), ("1.2.840.113549.1.7.2".toList,
    "signed_data".toList), ("1.2.840.113549.1.7.3".toList, "enveloped_data".toList), ("1.2.840.113549.1.7.4".toList,
    "signed_and_enveloped_data".toList), ("1.2.840.113549.1.7.5".toList, "digested_data".toList), ("1.2.840.113549.1.7.6".toList,
    "encrypted_data".toList), ("1.2.840.113549.1.9.16.1.2".toList, "authenticated_data".toList), ("1.2.840.113549.1.9.16.1.9".toList,
    "compressed_data".toList), ("1.2.840.113549.1.9.16.1.23".toList, "authenticated_enveloped_data".toList), ("1.2.840.113549.1.9.16.1.4".toList,
    "tst_info".toList), ("1.2.840.113549.1.9.16.1.31".toList, "timestamped_data".toList)], none, false⟩ { cls := 0, method := 0, tag := 6 }) []

/-- `CMSAlgorithmProtection` (cms.py:144-149) -/
def cms.CMSAlgorithmProtection : Shape := .seq { cls := 0, method := 1, tag := 16 } [] false [
    ⟨"digest_algorithm", Id.algos.DigestAlgorithm, {}⟩,
    ⟨"signature_algorithm", Id.algos.SignedDigestAlgorithm, { implicit := some (2, 1), optional := true }⟩,
    ⟨"mac_algorithm", Id.algos.HmacAlgorithm, { implicit := some (2, 2), optional := true }⟩] (none)

/-- `SetOfContentType` (cms.py:152-153) -/
def cms.SetOfContentType : Shape := .seqOf { cls := 0, method := 1, tag := 17 } [] true (some Id.cms.ContentType)

/-- `SetOfOctetString` (cms.py:156-157) -/
def cms.SetOfOctetString : Shape := .seqOf { cls := 0, method := 1, tag := 17 } [] true (some Id.core.OctetString)

/-- `SetOfTime` (cms.py:160-161) -/
def cms.SetOfTime : Shape := .seqOf { cls := 0, method := 1, tag := 17 } [] true (some Id.cms.Time)

/-- `SetOfAny` (cms.py:164-165) -/
def cms.SetOfAny : Shape := .seqOf { cls := 0, method := 1, tag := 17 } [] true (some Id.core.Any)

/-- `SetOfCMSAlgorithmProtection` (cms.py:168-169) -/
def cms.SetOfCMSAlgorithmProtection : Shape := .seqOf { cls := 0, method := 1, tag := 17 } [] true (some Id.cms.CMSAlgorithmProtection)

/-- `CMSAttribute` (cms.py:172-185, pdf.py:84, tsp.py:308, tsp.py:310, cms.py:997-1008) -/
def cms.CMSAttribute : Shape := .seq { cls := 0, method := 1, tag := 16 } [] false [
    ⟨"type", Id.cms.CMSAttributeType, {}⟩,
    ⟨"values", Id.core.Any, {}⟩] (some ⟨0, none, 1, [("content_type".toList, .field Id.cms.SetOfContentType), ("message_digest".toList, .field
      Id.cms.SetOfOctetString), ("signing_time".toList, .field Id.cms.SetOfTime), ("counter_signature".toList, .field Id.cms.SignerInfos),
      ("signature_time_stamp_token".toList, .field Id.cms.SetOfContentInfo), ("cms_algorithm_protection".toList, .field
      Id.cms.SetOfCMSAlgorithmProtection), ("microsoft_nested_signature".toList, .field Id.cms.SetOfContentInfo),
      ("microsoft_time_stamp_token".toList, .field Id.cms.SetOfContentInfo), ("encrypt_key_pref".toList, .field
      Id.cms.SMIMEEncryptionKeyPreferences), ("smime_capabilities".toList, .field Id.cms.SetOfSMIMECapabilites),
      ("adobe_revocation_info_archival".toList, .field Id.pdf.SetOfRevocationInfoArchival), ("signing_certificate".toList, .field
      Id.tsp.SetOfSigningCertificates), ("signing_certificate_v2".toList, .field Id.tsp.SetOfSigningCertificatesV2)], .ok (.field
      Id.cms.SetOfAny)⟩)

/-- `CMSAttributes` (cms.py:188-189) -/
def cms.CMSAttributes : Shape := .seqOf { cls := 0, method := 1, tag := 17 } [] true (some Id.cms.CMSAttribute)

/-- `IssuerSerial` (cms.py:192-197) -/
def cms.IssuerSerial : Shape := .seq { cls := 0, method := 1, tag := 16 } [] false [
    ⟨"issuer", Id.x509.GeneralNames, {}⟩,
    ⟨"serial", Id.core.Integer, {}⟩,
    ⟨"issuer_uid", Id.core.OctetBitString, { optional := true }⟩] (none)

/-- `AttCertVersion` (cms.py:200-204) -/
def cms.AttCertVersion : Shape := .leaf (.integer (some [(0, "v1"), (1, "v2")]) { cls := 0, method := 0, tag := 2 }) []

/-- `AttCertSubject` (cms.py:207-211) -/
def cms.AttCertSubject : Shape := .choice [] none [
    ⟨"base_certificate_id", Id.cms.IssuerSerial, { explicit := [(2, 0)] }⟩,
    ⟨"subject_name", Id.x509.GeneralNames, { explicit := [(2, 1)] }⟩]

/-- `AttCertValidityPeriod` (cms.py:214-218) -/
def cms.AttCertValidityPeriod : Shape := .seq { cls := 0, method := 1, tag := 16 } [] false [
    ⟨"not_before_time", Id.core.GeneralizedTime, {}⟩,
    ⟨"not_after_time", Id.core.GeneralizedTime, {}⟩] (none)

/-- `AttributeCertificateInfoV1` (cms.py:221-232) -/
def cms.AttributeCertificateInfoV1 : Shape := .seq { cls := 0, method := 1, tag := 16 } [] false [
    ⟨"version", Id.cms.AttCertVersion, { default := some (.scalar (.str "v1".toList)) }⟩,
    ⟨"subject", Id.cms.AttCertSubject, {}⟩,
    ⟨"issuer", Id.x509.GeneralNames, {}⟩,
    ⟨"signature", Id.algos.SignedDigestAlgorithm, {}⟩,
    ⟨"serial_number", Id.core.Integer, {}⟩,
    ⟨"att_cert_validity_period", Id.cms.AttCertValidityPeriod, {}⟩,
    ⟨"attributes", Id.x509.Attributes, {}⟩,
    ⟨"issuer_unique_id", Id.core.OctetBitString, { optional := true }⟩,
    ⟨"extensions", Id.x509.Extensions, { optional := true }⟩] (none)

/-- `DigestedObjectType` (cms.py:243-248) -/
def cms.DigestedObjectType : Shape := .leaf (.enumerated (some [(0, "public_key"), (1, "public_key_cert"), (2, "other_objy_types")])
    { cls := 0, method := 0, tag := 10 }) []

/-- `ObjectDigestInfo` (cms.py:251-257) -/
def cms.ObjectDigestInfo : Shape := .seq { cls := 0, method := 1, tag := 16 } [] false [
    ⟨"digested_object_type", Id.cms.DigestedObjectType, {}⟩,
    ⟨"other_object_type_id", Id.core.ObjectIdentifier, { optional := true }⟩,
    ⟨"digest_algorithm", Id.algos.DigestAlgorithm, {}⟩,
    ⟨"object_digest", Id.core.OctetBitString, {}⟩] (none)

/-- `Holder` (cms.py:260-265) -/
def cms.Holder : Shape := .seq { cls := 0, method := 1, tag := 16 } [] false [
    ⟨"base_certificate_id", Id.cms.IssuerSerial, { implicit := some (2, 0), optional := true }⟩,
    ⟨"entity_name", Id.x509.GeneralNames, { implicit := some (2, 1), optional := true }⟩,
    ⟨"object_digest_info", Id.cms.ObjectDigestInfo, { implicit := some (2, 2), optional := true }⟩] (none)

/-- `V2Form` (cms.py:268-273) -/
def cms.V2Form : Shape := .seq { cls := 0, method := 1, tag := 16 } [] false [
    ⟨"issuer_name", Id.x509.GeneralNames, { optional := true }⟩,
    ⟨"base_certificate_id", Id.cms.IssuerSerial, { explicit := [(2, 0)], optional := true }⟩,
    ⟨"object_digest_info", Id.cms.ObjectDigestInfo, { explicit := [(2, 1)], optional := true }⟩] (none)

/-- `AttCertIssuer` (cms.py:276-280) -/
def cms.AttCertIssuer : Shape := .choice [] none [
    ⟨"v1_form", Id.x509.GeneralNames, {}⟩,
    ⟨"v2_form", Id.cms.V2Form, { implicit := some (2, 0) }⟩]

/-- `IetfAttrValue` (cms.py:283-288) -/
def cms.IetfAttrValue : Shape := .choice [] none [
    ⟨"octets", Id.core.OctetString, {}⟩,
    ⟨"oid", Id.core.ObjectIdentifier, {}⟩,
    ⟨"string", Id.core.UTF8String, {}⟩]

/-- `IetfAttrValues` (cms.py:291-292) -/
def cms.IetfAttrValues : Shape := .seqOf { cls := 0, method := 1, tag := 16 } [] false (some Id.cms.IetfAttrValue)

/-- `IetfAttrSyntax` (cms.py:295-299) -/
def cms.IetfAttrSyntax : Shape := .seq { cls := 0, method := 1, tag := 16 } [] false [
    ⟨"policy_authority", Id.x509.GeneralNames, { implicit := some (2, 0), optional := true }⟩,
    ⟨"values", Id.cms.IetfAttrValues, {}⟩] (none)

/-- `SetOfIetfAttrSyntax` (cms.py:302-303) -/
def cms.SetOfIetfAttrSyntax : Shape := .seqOf { cls := 0, method := 1, tag := 17 } [] true (some Id.cms.IetfAttrSyntax)

/-- `SvceAuthInfo` (cms.py:306-311) -/
def cms.SvceAuthInfo : Shape := .seq { cls := 0, method := 1, tag := 16 } [] false [
    ⟨"service", Id.x509.GeneralName, {}⟩,
    ⟨"ident", Id.x509.GeneralName, {}⟩,
    ⟨"auth_info", Id.core.OctetString, { optional := true }⟩] (none)

/-- `SetOfSvceAuthInfo` (cms.py:314-315) -/
def cms.SetOfSvceAuthInfo : Shape := .seqOf { cls := 0, method := 1, tag := 17 } [] true (some Id.cms.SvceAuthInfo)

/-- `RoleSyntax` (cms.py:318-322) -/
def cms.RoleSyntax : Shape := .seq { cls := 0, method := 1, tag := 16 } [] false [
    ⟨"role_authority", Id.x509.GeneralNames, { implicit := some (2, 0), optional := true }⟩,
    ⟨"role_name", Id.x509.GeneralName, { explicit := [(2, 1)] }⟩] (none)

/-- `SetOfRoleSyntax` (cms.py:325-326) -/
def cms.SetOfRoleSyntax : Shape := .seqOf { cls := 0, method := 1, tag := 17 } [] true (some Id.cms.RoleSyntax)

/-- `ClassList` (cms.py:329-337) -/
def cms.ClassList : Shape := .leaf (.named [(0, "unmarked"), (1, "unclassified"), (2, "restricted"), (3, "confidential"), (4, "secret"), (5,
    "top_secret")] { cls := 0, method := 0, tag := 3 }) []

/-- `SecurityCategory` (cms.py:340-344) -/
def cms.SecurityCategory : Shape := .seq { cls := 0, method := 1, tag := 16 } [] false [
    ⟨"type", Id.core.ObjectIdentifier, { implicit := some (2, 0) }⟩,
    ⟨"value", Id.core.Any, { explicit := [(2, 1)] }⟩] (none)

/-- `SetOfSecurityCategory` (cms.py:347-348) -/
def cms.SetOfSecurityCategory : Shape := .seqOf { cls := 0, method := 1, tag := 17 } [] true (some Id.cms.SecurityCategory)

/-- `Clearance` (cms.py:351-356) -/
def cms.Clearance : Shape := .seq { cls := 0, method := 1, tag := 16 } [] false [
    ⟨"policy_id", Id.core.ObjectIdentifier, {}⟩,
    ⟨"class_list", Id.cms.ClassList, { default := some (.scalar (.keys [.name "unclassified"])) }⟩,
    ⟨"security_categories", Id.cms.SetOfSecurityCategory, { optional := true }⟩] (none)

/-- `SetOfClearance` (cms.py:359-360) -/
def cms.SetOfClearance : Shape := .seqOf { cls := 0, method := 1, tag := 17 } [] true (some Id.cms.Clearance)

/-- `BigTime` (cms.py:363-368) -/
def cms.BigTime : Shape := .seq { cls := 0, method := 1, tag := 16 } [] false [
    ⟨"major", Id.core.Integer, {}⟩,
    ⟨"fractional_seconds", Id.core.Integer, {}⟩,
    ⟨"sign", Id.core.Integer, { optional := true }⟩] (none)

/-- `LeapData` (cms.py:371-375) -/
def cms.LeapData : Shape := .seq { cls := 0, method := 1, tag := 16 } [] false [
    ⟨"leap_time", Id.cms.BigTime, {}⟩,
    ⟨"action", Id.core.Integer, {}⟩] (none)

/-- `SetOfLeapData` (cms.py:378-379) -/
def cms.SetOfLeapData : Shape := .seqOf { cls := 0, method := 1, tag := 17 } [] true (some Id.cms.LeapData)

/-- `TimingMetrics` (cms.py:382-389) -/
def cms.TimingMetrics : Shape := .seq { cls := 0, method := 1, tag := 16 } [] false [
    ⟨"ntp_time", Id.cms.BigTime, {}⟩,
    ⟨"offset", Id.cms.BigTime, {}⟩,
    ⟨"delay", Id.cms.BigTime, {}⟩,
    ⟨"expiration", Id.cms.BigTime, {}⟩,
    ⟨"leap_event", Id.cms.SetOfLeapData, { optional := true }⟩] (none)

/-- `SetOfTimingMetrics` (cms.py:392-393) -/
def cms.SetOfTimingMetrics : Shape := .seqOf { cls := 0, method := 1, tag := 17 } [] true (some Id.cms.TimingMetrics)

/-- `TimingPolicy` (cms.py:396-401) -/
def cms.TimingPolicy : Shape := .seq { cls := 0, method := 1, tag := 16 } [] false [
    ⟨"policy_id", Id.spec.SequenceOfObjectIdentifier, {}⟩,
    ⟨"max_offset", Id.cms.BigTime, { explicit := [(2, 0)], optional := true }⟩,
    ⟨"max_delay", Id.cms.BigTime, { explicit := [(2, 1)], optional := true }⟩] (none)

/-- `SetOfTimingPolicy` (cms.py:404-405) -/
def cms.SetOfTimingPolicy : Shape := .seqOf { cls := 0, method := 1, tag := 17 } [] true (some Id.cms.TimingPolicy)

/-- `AttCertAttributeType` (cms.py:408-418) -/
def cms.AttCertAttributeType : Shape := .leaf (.oid ⟨some [("1.3.6.1.5.5.7.10.1".toList, "authentication_info".toList), ("1.3.6.1.5.5.7.10.2".toList,
    "access_identity".toList), ("1.3.6.1.5.5.7.10.3".toList, "charging_identity".toList), ("1.3.6.1.5.5.7.10.4".toList, "group".toList),
    ("2.5.4.72".toList, "role".toList), ("2.5.4.55".toList, "clearance".toList), ("1.3.6.1.4.1.601.10.4.1".toList, "timing_metrics".toList),
    ("1.3.6.1.4.1.601.10.4.2".toList, "timing_policy".toList)], none, false⟩ { cls := 0, method := 0, tag := 6 }) []

/-- `AttCertAttribute` (cms.py:421-443) -/
def cms.AttCertAttribute : Shape := .seq { cls := 0, method := 1, tag := 16 } [] false [
    ⟨"type", Id.cms.AttCertAttributeType, {}⟩,
    ⟨"values", Id.core.Any, {}⟩] (some ⟨0, none, 1, [("authentication_info".toList, .field Id.cms.SetOfSvceAuthInfo), ("access_identity".toList,
      .field Id.cms.SetOfSvceAuthInfo), ("charging_identity".toList, .field Id.cms.SetOfIetfAttrSyntax), ("group".toList, .field
      Id.cms.SetOfIetfAttrSyntax), ("role".toList, .field Id.cms.SetOfRoleSyntax), ("clearance".toList, .field Id.cms.SetOfClearance),
      ("timing_metrics".toList, .field Id.cms.SetOfTimingMetrics), ("timing_policy".toList, .field Id.cms.SetOfTimingPolicy)], .ok (.field
      Id.cms.SetOfAny)⟩)

/-- `AttCertAttributes` (cms.py:446-447) -/
def cms.AttCertAttributes : Shape := .seqOf { cls := 0, method := 1, tag := 16 } [] false (some Id.cms.AttCertAttribute)

/-- `AttributeCertificateInfoV2` (cms.py:450-461) -/
def cms.AttributeCertificateInfoV2 : Shape := .seq { cls := 0, method := 1, tag := 16 } [] false [
    ⟨"version", Id.cms.AttCertVersion, {}⟩,
    ⟨"holder", Id.cms.Holder, {}⟩,
    ⟨"issuer", Id.cms.AttCertIssuer, {}⟩,
    ⟨"signature", Id.algos.SignedDigestAlgorithm, {}⟩,
    ⟨"serial_number", Id.core.Integer, {}⟩,
    ⟨"att_cert_validity_period", Id.cms.AttCertValidityPeriod, {}⟩,
    ⟨"attributes", Id.cms.AttCertAttributes, {}⟩,
    ⟨"issuer_unique_id", Id.core.OctetBitString, { optional := true }⟩,
    ⟨"extensions", Id.x509.Extensions, { optional := true }⟩] (none)

/-- `AttributeCertificateV2` (cms.py:464-472) -/
def cms.AttributeCertificateV2 : Shape := .seq { cls := 0, method := 1, tag := 16 } [1] false [
    ⟨"ac_info", Id.cms.AttributeCertificateInfoV2, {}⟩,
    ⟨"signature_algorithm", Id.algos.SignedDigestAlgorithm, {}⟩,
    ⟨"signature", Id.core.OctetBitString, {}⟩] (none)

/-- `OtherCertificateFormat` (cms.py:475-479) -/
def cms.OtherCertificateFormat : Shape := .seq { cls := 0, method := 1, tag := 16 } [] false [
    ⟨"other_cert_format", Id.core.ObjectIdentifier, {}⟩,
    ⟨"other_cert", Id.core.Any, {}⟩] (none)

/-- `CertificateChoices` (cms.py:482-489) -/
def cms.CertificateChoices : Shape := .choice [] none [
    ⟨"certificate", Id.x509.Certificate, {}⟩,
    ⟨"extended_certificate", Id.cms.ExtendedCertificate, { implicit := some (2, 0) }⟩,
    ⟨"v1_attr_cert", Id.cms.AttributeCertificateV1, { implicit := some (2, 1) }⟩,
    ⟨"v2_attr_cert", Id.cms.AttributeCertificateV2, { implicit := some (2, 2) }⟩,
    ⟨"other", Id.cms.OtherCertificateFormat, { implicit := some (2, 3) }⟩]

/-- `CertificateSet` (cms.py:517-518) -/
def cms.CertificateSet : Shape := .seqOf { cls := 0, method := 1, tag := 17 } [] true (some Id.cms.CertificateChoices)

/-- `ContentInfo` (cms.py:521-528, tsp.py:304, cms.py:972-982) -/
def cms.ContentInfo : Shape := .seq { cls := 0, method := 1, tag := 16 } [] false [
    ⟨"content_type", Id.cms.ContentType, {}⟩,
    ⟨"content", Id.core.Any, { explicit := [(2, 0)], optional := true }⟩] (some ⟨0, none, 1, [("data".toList, .value Id.core.OctetString),
      ("signed_data".toList, .value Id.cms.SignedData), ("enveloped_data".toList, .value Id.cms.EnvelopedData),
      ("signed_and_enveloped_data".toList, .value Id.cms.SignedAndEnvelopedData), ("digested_data".toList, .value Id.cms.DigestedData),
      ("encrypted_data".toList, .value Id.cms.EncryptedData), ("authenticated_data".toList, .value Id.cms.AuthenticatedData),
      ("compressed_data".toList, .value Id.cms.CompressedData), ("authenticated_enveloped_data".toList, .value Id.cms.AuthEnvelopedData),
      ("timestamped_data".toList, .value Id.tsp.TimeStampedData)], .ok .same⟩)

/-- `SetOfContentInfo` (cms.py:531-532) -/
def cms.SetOfContentInfo : Shape := .seqOf { cls := 0, method := 1, tag := 17 } [] true (some Id.cms.ContentInfo)

/-- `EncapsulatedContentInfo` (cms.py:535-542, tsp.py:302, tsp.py:303, cms.py:985-994) -/
def cms.EncapsulatedContentInfo : Shape := .seq { cls := 0, method := 1, tag := 16 } [] false [
    ⟨"content_type", Id.cms.ContentType, {}⟩,
    ⟨"content", Id.core.ParsableOctetString, { explicit := [(2, 0)], optional := true }⟩] (some ⟨0, none, 1, [("signed_data".toList, .value
      Id.cms.SignedData), ("enveloped_data".toList, .value Id.cms.EnvelopedData), ("signed_and_enveloped_data".toList, .value
      Id.cms.SignedAndEnvelopedData), ("digested_data".toList, .value Id.cms.DigestedData), ("encrypted_data".toList, .value
      Id.cms.EncryptedData), ("authenticated_data".toList, .value Id.cms.AuthenticatedData), ("compressed_data".toList, .value
      Id.cms.CompressedData), ("authenticated_enveloped_data".toList, .value Id.cms.AuthEnvelopedData), ("tst_info".toList, .value
      Id.tsp.TSTInfo), ("timestamped_data".toList, .value Id.tsp.TimeStampedData)], .ok .same⟩)

/-- `IssuerAndSerialNumber` (cms.py:545-549) -/
def cms.IssuerAndSerialNumber : Shape := .seq { cls := 0, method := 1, tag := 16 } [] false [
    ⟨"issuer", Id.x509.Name, {}⟩,
    ⟨"serial_number", Id.core.Integer, {}⟩] (none)

/-- `SignerIdentifier` (cms.py:552-556) -/
def cms.SignerIdentifier : Shape := .choice [] none [
    ⟨"issuer_and_serial_number", Id.cms.IssuerAndSerialNumber, {}⟩,
    ⟨"subject_key_identifier", Id.core.OctetString, { implicit := some (2, 0) }⟩]

/-- `DigestAlgorithms` (cms.py:559-560) -/
def cms.DigestAlgorithms : Shape := .seqOf { cls := 0, method := 1, tag := 17 } [] true (some Id.algos.DigestAlgorithm)

/-- `CertificateRevocationLists` (cms.py:563-564) -/
def cms.CertificateRevocationLists : Shape := .seqOf { cls := 0, method := 1, tag := 17 } [] true (some Id.crl.CertificateList)

/-- `SCVPReqRes` (cms.py:567-571) -/
def cms.SCVPReqRes : Shape := .seq { cls := 0, method := 1, tag := 16 } [] false [
    ⟨"request", Id.cms.ContentInfo, { explicit := [(2, 0)], optional := true }⟩,
    ⟨"response", Id.cms.ContentInfo, {}⟩] (none)

/-- `OtherRevInfoFormatId` (cms.py:574-578) -/
def cms.OtherRevInfoFormatId : Shape := .leaf (.oid ⟨some [("1.3.6.1.5.5.7.16.2".toList, "ocsp_response".toList), ("1.3.6.1.5.5.7.16.4".toList,
    "scvp".toList)], none, false⟩ { cls := 0, method := 0, tag := 6 }) []

/-- `OtherRevocationInfoFormat` (cms.py:581-591) -/
def cms.OtherRevocationInfoFormat : Shape := .seq { cls := 0, method := 1, tag := 16 } [] false [
    ⟨"other_rev_info_format", Id.cms.OtherRevInfoFormatId, {}⟩,
    ⟨"other_rev_info", Id.core.Any, {}⟩] (some ⟨0, none, 1, [("ocsp_response".toList, .value Id.ocsp.OCSPResponse), ("scvp".toList, .value
      Id.cms.SCVPReqRes)], .ok .same⟩)

/-- `RevocationInfoChoice` (cms.py:594-598) -/
def cms.RevocationInfoChoice : Shape := .choice [] none [
    ⟨"crl", Id.crl.CertificateList, {}⟩,
    ⟨"other", Id.cms.OtherRevocationInfoFormat, { implicit := some (2, 1) }⟩]

/-- `RevocationInfoChoices` (cms.py:601-602) -/
def cms.RevocationInfoChoices : Shape := .seqOf { cls := 0, method := 1, tag := 17 } [] true (some Id.cms.RevocationInfoChoice)

/-- `SignerInfo` (cms.py:605-614) -/
def cms.SignerInfo : Shape := .seq { cls := 0, method := 1, tag := 16 } [] false [
    ⟨"version", Id.cms.CMSVersion, {}⟩,
    ⟨"sid", Id.cms.SignerIdentifier, {}⟩,
    ⟨"digest_algorithm", Id.algos.DigestAlgorithm, {}⟩,
    ⟨"signed_attrs", Id.cms.CMSAttributes, { implicit := some (2, 0), optional := true }⟩,
    ⟨"signature_algorithm", Id.algos.SignedDigestAlgorithm, {}⟩,
    ⟨"signature", Id.core.OctetString, {}⟩,
    ⟨"unsigned_attrs", Id.cms.CMSAttributes, { implicit := some (2, 1), optional := true }⟩] (none)

/-- `SignerInfos` (cms.py:617-618) -/
def cms.SignerInfos : Shape := .seqOf { cls := 0, method := 1, tag := 17 } [] true (some Id.cms.SignerInfo)

/-- `SignedData` (cms.py:621-647) -/
def cms.SignedData : Shape := .seq { cls := 0, method := 1, tag := 16 } [] false [
    ⟨"version", Id.cms.CMSVersion, {}⟩,
    ⟨"digest_algorithms", Id.cms.DigestAlgorithms, {}⟩,
    ⟨"encap_content_info", Id.core.Any, {}⟩,
    ⟨"certificates", Id.cms.CertificateSet, { implicit := some (2, 0), optional := true }⟩,
    ⟨"crls", Id.cms.RevocationInfoChoices, { implicit := some (2, 1), optional := true }⟩,
    ⟨"signer_infos", Id.cms.SignerInfos, {}⟩] (some ⟨0, none, 2, [("v1".toList, .field Id.cms.ContentInfo)], .ok (.field
      Id.cms.EncapsulatedContentInfo)⟩)

/-- `OriginatorInfo` (cms.py:650-654) -/
def cms.OriginatorInfo : Shape := .seq { cls := 0, method := 1, tag := 16 } [] false [
    ⟨"certs", Id.cms.CertificateSet, { implicit := some (2, 0), optional := true }⟩,
    ⟨"crls", Id.cms.RevocationInfoChoices, { implicit := some (2, 1), optional := true }⟩] (none)

/-- `RecipientIdentifier` (cms.py:657-661) -/
def cms.RecipientIdentifier : Shape := .choice [] none [
    ⟨"issuer_and_serial_number", Id.cms.IssuerAndSerialNumber, {}⟩,
    ⟨"subject_key_identifier", Id.core.OctetString, { implicit := some (2, 0) }⟩]

/-- `KeyEncryptionAlgorithmId` (cms.py:664-686) -/
def cms.KeyEncryptionAlgorithmId : Shape := .leaf (.oid ⟨some [("1.2.840.113549.1.1.1".toList, "rsaes_pkcs1v15".toList),
    ("1.2.840.113549.1.1.7".toList, "rsaes_oaep".toList), ("2.16.840.1.101.3.4.1.5".toList, "aes128_wrap".toList), ("2.16.840.1.101.3.4.1.8".toList,
    "aes128_wrap_pad".toList), ("2.16.840.1.101.3.4.1.25".toList, "aes192_wrap".toList), ("2.16.840.1.101.3.4.1.28".toList, "aes192_wrap_pad".toList),
    ("2.16.840.1.101.3.4.1.45".toList, "aes256_wrap".toList), ("2.16.840.1.101.3.4.1.48".toList, "aes256_wrap_pad".toList)], some [("rsa".toList,
    "1.2.840.113549.1.1.1".toList), ("rsaes_pkcs1v15".toList, "1.2.840.113549.1.1.1".toList), ("rsaes_oaep".toList, "1.2.840.113549.1.1.7".toList),
    ("aes128_wrap".toList, "2.16.840.1.101.3.4.1.5".toList), ("aes128_wrap_pad".toList, "2.16.840.1.101.3.4.1.8".toList), ("aes192_wrap".toList,
    "2.16.840.1.101.3.4.1.25".toList), ("aes192_wrap_pad".toList, "2.16.840.1.101.3.4.1.28".toList), ("aes256_wrap".toList,
    "2.16.840.1.101.3.4.1.45".toList), ("aes256_wrap_pad".toList, "2.16.840.1.101.3.4.1.48".toList)], false⟩ { cls := 0, method := 0, tag := 6 }) []

/-- `KeyEncryptionAlgorithm` (cms.py:689-698) -/
def cms.KeyEncryptionAlgorithm : Shape := .seq { cls := 0, method := 1, tag := 16 } [] false [
    ⟨"algorithm", Id.cms.KeyEncryptionAlgorithmId, {}⟩,
    ⟨"parameters", Id.core.Any, { optional := true }⟩] (some ⟨0, none, 1, [("rsaes_oaep".toList, .value Id.algos.RSAESOAEPParams),
      ("rsaes_pkcs1v15".toList, .value Id.core.Null), ("1.2.840.113549.1.1.11".toList, .value Id.core.Null), ("1.2.840.113549.1.1.12".toList,
      .value Id.core.Null), ("1.2.840.113549.1.1.13".toList, .value Id.core.Null), ("1.2.840.113549.1.1.14".toList, .value Id.core.Null),
      ("1.3.14.3.2.26".toList, .value Id.core.Null), ("2.16.840.1.101.3.4.2.1".toList, .value Id.core.Null), ("2.16.840.1.101.3.4.2.2".toList,
      .value Id.core.Null), ("2.16.840.1.101.3.4.2.3".toList, .value Id.core.Null), ("2.16.840.1.101.3.4.2.4".toList, .value Id.core.Null)], .ok
      .same⟩)

/-- `KeyTransRecipientInfo` (cms.py:701-707) -/
def cms.KeyTransRecipientInfo : Shape := .seq { cls := 0, method := 1, tag := 16 } [] false [
    ⟨"version", Id.cms.CMSVersion, {}⟩,
    ⟨"rid", Id.cms.RecipientIdentifier, {}⟩,
    ⟨"key_encryption_algorithm", Id.cms.KeyEncryptionAlgorithm, {}⟩,
    ⟨"encrypted_key", Id.core.OctetString, {}⟩] (none)

/-- `OriginatorIdentifierOrKey` (cms.py:710-715) -/
def cms.OriginatorIdentifierOrKey : Shape := .choice [] none [
    ⟨"issuer_and_serial_number", Id.cms.IssuerAndSerialNumber, {}⟩,
    ⟨"subject_key_identifier", Id.core.OctetString, { implicit := some (2, 0) }⟩,
    ⟨"originator_key", Id.keys.PublicKeyInfo, { implicit := some (2, 1) }⟩]

/-- `OtherKeyAttribute` (cms.py:718-722) -/
def cms.OtherKeyAttribute : Shape := .seq { cls := 0, method := 1, tag := 16 } [] false [
    ⟨"key_attr_id", Id.core.ObjectIdentifier, {}⟩,
    ⟨"key_attr", Id.core.Any, {}⟩] (none)

/-- `RecipientKeyIdentifier` (cms.py:725-730) -/
def cms.RecipientKeyIdentifier : Shape := .seq { cls := 0, method := 1, tag := 16 } [] false [
    ⟨"subject_key_identifier", Id.core.OctetString, {}⟩,
    ⟨"date", Id.core.GeneralizedTime, { optional := true }⟩,
    ⟨"other", Id.cms.OtherKeyAttribute, { optional := true }⟩] (none)

/-- `KeyAgreementRecipientIdentifier` (cms.py:739-743) -/
def cms.KeyAgreementRecipientIdentifier : Shape := .choice [] none [
    ⟨"issuer_and_serial_number", Id.cms.IssuerAndSerialNumber, {}⟩,
    ⟨"r_key_id", Id.cms.RecipientKeyIdentifier, { implicit := some (2, 0) }⟩]

/-- `RecipientEncryptedKey` (cms.py:746-750) -/
def cms.RecipientEncryptedKey : Shape := .seq { cls := 0, method := 1, tag := 16 } [] false [
    ⟨"rid", Id.cms.KeyAgreementRecipientIdentifier, {}⟩,
    ⟨"encrypted_key", Id.core.OctetString, {}⟩] (none)

/-- `RecipientEncryptedKeys` (cms.py:753-754) -/
def cms.RecipientEncryptedKeys : Shape := .seqOf { cls := 0, method := 1, tag := 16 } [] false (some Id.cms.RecipientEncryptedKey)

/-- `KeyAgreeRecipientInfo` (cms.py:757-764) -/
def cms.KeyAgreeRecipientInfo : Shape := .seq { cls := 0, method := 1, tag := 16 } [] false [
    ⟨"version", Id.cms.CMSVersion, {}⟩,
    ⟨"originator", Id.cms.OriginatorIdentifierOrKey, { explicit := [(2, 0)] }⟩,
    ⟨"ukm", Id.core.OctetString, { explicit := [(2, 1)], optional := true }⟩,
    ⟨"key_encryption_algorithm", Id.cms.KeyEncryptionAlgorithm, {}⟩,
    ⟨"recipient_encrypted_keys", Id.cms.RecipientEncryptedKeys, {}⟩] (none)

/-- `KEKIdentifier` (cms.py:767-772) -/
def cms.KEKIdentifier : Shape := .seq { cls := 0, method := 1, tag := 16 } [] false [
    ⟨"key_identifier", Id.core.OctetString, {}⟩,
    ⟨"date", Id.core.GeneralizedTime, { optional := true }⟩,
    ⟨"other", Id.cms.OtherKeyAttribute, { optional := true }⟩] (none)

/-- `KEKRecipientInfo` (cms.py:775-781) -/
def cms.KEKRecipientInfo : Shape := .seq { cls := 0, method := 1, tag := 16 } [] false [
    ⟨"version", Id.cms.CMSVersion, {}⟩,
    ⟨"kekid", Id.cms.KEKIdentifier, {}⟩,
    ⟨"key_encryption_algorithm", Id.cms.KeyEncryptionAlgorithm, {}⟩,
    ⟨"encrypted_key", Id.core.OctetString, {}⟩] (none)

/-- `PasswordRecipientInfo` (cms.py:784-790) -/
def cms.PasswordRecipientInfo : Shape := .seq { cls := 0, method := 1, tag := 16 } [] false [
    ⟨"version", Id.cms.CMSVersion, {}⟩,
    ⟨"key_derivation_algorithm", Id.algos.KdfAlgorithm, { implicit := some (2, 0), optional := true }⟩,
    ⟨"key_encryption_algorithm", Id.cms.KeyEncryptionAlgorithm, {}⟩,
    ⟨"encrypted_key", Id.core.OctetString, {}⟩] (none)

/-- `OtherRecipientInfo` (cms.py:793-797) -/
def cms.OtherRecipientInfo : Shape := .seq { cls := 0, method := 1, tag := 16 } [] false [
    ⟨"ori_type", Id.core.ObjectIdentifier, {}⟩,
    ⟨"ori_value", Id.core.Any, {}⟩] (none)

/-- `RecipientInfo` (cms.py:800-807) -/
def cms.RecipientInfo : Shape := .choice [] none [
    ⟨"ktri", Id.cms.KeyTransRecipientInfo, {}⟩,
    ⟨"kari", Id.cms.KeyAgreeRecipientInfo, { implicit := some (2, 1) }⟩,
    ⟨"kekri", Id.cms.KEKRecipientInfo, { implicit := some (2, 2) }⟩,
    ⟨"pwri", Id.cms.PasswordRecipientInfo, { implicit := some (2, 3) }⟩,
    ⟨"ori", Id.cms.OtherRecipientInfo, { implicit := some (2, 4) }⟩]

/-- `RecipientInfos` (cms.py:810-811) -/
def cms.RecipientInfos : Shape := .seqOf { cls := 0, method := 1, tag := 17 } [] true (some Id.cms.RecipientInfo)

/-- `EncryptedContentInfo` (cms.py:814-819) -/
def cms.EncryptedContentInfo : Shape := .seq { cls := 0, method := 1, tag := 16 } [] false [
    ⟨"content_type", Id.cms.ContentType, {}⟩,
    ⟨"content_encryption_algorithm", Id.algos.EncryptionAlgorithm, {}⟩,
    ⟨"encrypted_content", Id.core.OctetString, { implicit := some (2, 0), optional := true }⟩] (none)

/-- `EnvelopedData` (cms.py:822-829) -/
def cms.EnvelopedData : Shape := .seq { cls := 0, method := 1, tag := 16 } [] false [
    ⟨"version", Id.cms.CMSVersion, {}⟩,
    ⟨"originator_info", Id.cms.OriginatorInfo, { implicit := some (2, 0), optional := true }⟩,
    ⟨"recipient_infos", Id.cms.RecipientInfos, {}⟩,
    ⟨"encrypted_content_info", Id.cms.EncryptedContentInfo, {}⟩,
    ⟨"unprotected_attrs", Id.cms.CMSAttributes, { implicit := some (2, 1), optional := true }⟩] (none)

/-- `SignedAndEnvelopedData` (cms.py:832-841) -/
def cms.SignedAndEnvelopedData : Shape := .seq { cls := 0, method := 1, tag := 16 } [] false [
    ⟨"version", Id.cms.CMSVersion, {}⟩,
    ⟨"recipient_infos", Id.cms.RecipientInfos, {}⟩,
    ⟨"digest_algorithms", Id.cms.DigestAlgorithms, {}⟩,
    ⟨"encrypted_content_info", Id.cms.EncryptedContentInfo, {}⟩,
    ⟨"certificates", Id.cms.CertificateSet, { implicit := some (2, 0), optional := true }⟩,
    ⟨"crls", Id.cms.CertificateRevocationLists, { implicit := some (2, 1), optional := true }⟩,
    ⟨"signer_infos", Id.cms.SignerInfos, {}⟩] (none)

/-- `DigestedData` (cms.py:844-868) -/
def cms.DigestedData : Shape := .seq { cls := 0, method := 1, tag := 16 } [] false [
    ⟨"version", Id.cms.CMSVersion, {}⟩,
    ⟨"digest_algorithm", Id.algos.DigestAlgorithm, {}⟩,
    ⟨"encap_content_info", Id.core.Any, {}⟩,
    ⟨"digest", Id.core.OctetString, {}⟩] (some ⟨0, none, 2, [("v1".toList, .field Id.cms.ContentInfo)], .ok (.field Id.cms.EncapsulatedContentInfo)⟩)

/-- `EncryptedData` (cms.py:871-876) -/
def cms.EncryptedData : Shape := .seq { cls := 0, method := 1, tag := 16 } [] false [
    ⟨"version", Id.cms.CMSVersion, {}⟩,
    ⟨"encrypted_content_info", Id.cms.EncryptedContentInfo, {}⟩,
    ⟨"unprotected_attrs", Id.cms.CMSAttributes, { implicit := some (2, 1), optional := true }⟩] (none)

/-- `AuthenticatedData` (cms.py:879-892) -/
def cms.AuthenticatedData : Shape := .seq { cls := 0, method := 1, tag := 16 } [] false [
    ⟨"version", Id.cms.CMSVersion, {}⟩,
    ⟨"originator_info", Id.cms.OriginatorInfo, { implicit := some (2, 0), optional := true }⟩,
    ⟨"recipient_infos", Id.cms.RecipientInfos, {}⟩,
    ⟨"mac_algorithm", Id.algos.HmacAlgorithm, {}⟩,
    ⟨"digest_algorithm", Id.algos.DigestAlgorithm, { implicit := some (2, 1), optional := true }⟩,
    ⟨"encap_content_info", Id.cms.EncapsulatedContentInfo, {}⟩,
    ⟨"auth_attrs", Id.cms.CMSAttributes, { implicit := some (2, 2), optional := true }⟩,
    ⟨"mac", Id.core.OctetString, {}⟩,
    ⟨"unauth_attrs", Id.cms.CMSAttributes, { implicit := some (2, 3), optional := true }⟩] (none)

/-- `AuthEnvelopedData` (cms.py:895-904) -/
def cms.AuthEnvelopedData : Shape := .seq { cls := 0, method := 1, tag := 16 } [] false [
    ⟨"version", Id.cms.CMSVersion, {}⟩,
    ⟨"originator_info", Id.cms.OriginatorInfo, { implicit := some (2, 0), optional := true }⟩,
    ⟨"recipient_infos", Id.cms.RecipientInfos, {}⟩,
    ⟨"auth_encrypted_content_info", Id.cms.EncryptedContentInfo, {}⟩,
    ⟨"auth_attrs", Id.cms.CMSAttributes, { implicit := some (2, 1), optional := true }⟩,
    ⟨"mac", Id.core.OctetString, {}⟩,
    ⟨"unauth_attrs", Id.cms.CMSAttributes, { implicit := some (2, 2), optional := true }⟩] (none)

/-- `CompressionAlgorithmId` (cms.py:907-910) -/
def cms.CompressionAlgorithmId : Shape := .leaf (.oid ⟨some [("1.2.840.113549.1.9.16.3.8".toList, "zlib".toList)], none, false⟩
    { cls := 0, method := 0, tag := 6 }) []

/-- `CompressionAlgorithm` (cms.py:913-917) -/
def cms.CompressionAlgorithm : Shape := .seq { cls := 0, method := 1, tag := 16 } [] false [
    ⟨"algorithm", Id.cms.CompressionAlgorithmId, {}⟩,
    ⟨"parameters", Id.core.Any, { optional := true }⟩] (none)

/-- `CompressedData` (cms.py:920-927) -/
def cms.CompressedData : Shape := .seq { cls := 0, method := 1, tag := 16 } [] false [
    ⟨"version", Id.cms.CMSVersion, {}⟩,
    ⟨"compression_algorithm", Id.cms.CompressionAlgorithm, {}⟩,
    ⟨"encap_content_info", Id.cms.EncapsulatedContentInfo, {}⟩] (none)

/-- `SMIMEEncryptionKeyPreference` (cms.py:938-943) -/
def cms.SMIMEEncryptionKeyPreference : Shape := .choice [] none [
    ⟨"issuer_and_serial_number", Id.cms.IssuerAndSerialNumber, { implicit := some (2, 0) }⟩,
    ⟨"recipient_key_id", Id.cms.RecipientKeyIdentifier, { implicit := some (2, 1) }⟩,
    ⟨"subject_alt_key_identifier", Id.keys.PublicKeyInfo, { implicit := some (2, 2) }⟩]

/-- `SMIMEEncryptionKeyPreferences` (cms.py:953-954) -/
def cms.SMIMEEncryptionKeyPreferences : Shape := .seqOf { cls := 0, method := 1, tag := 17 } [] true (some Id.cms.SMIMEEncryptionKeyPreference)

/-- `SMIMECapabilityIdentifier` (cms.py:957-961) -/
def cms.SMIMECapabilityIdentifier : Shape := .seq { cls := 0, method := 1, tag := 16 } [] false [
    ⟨"capability_id", Id.algos.EncryptionAlgorithmId, {}⟩,
    ⟨"parameters", Id.core.Any, { optional := true }⟩] (none)

/-- `SMIMECapabilites` (cms.py:964-965) -/
def cms.SMIMECapabilites : Shape := .seqOf { cls := 0, method := 1, tag := 16 } [] false (some Id.cms.SMIMECapabilityIdentifier)

/-- `SetOfSMIMECapabilites` (cms.py:968-969) -/
def cms.SetOfSMIMECapabilites : Shape := .seqOf { cls := 0, method := 1, tag := 17 } [] true (some Id.cms.SMIMECapabilites)

/-- `Version` (tsp.py:56-64) -/
def tsp.Version : Shape := .leaf (.integer (some [(0, "v0"), (1, "v1"), (2, "v2"), (3, "v3"), (4, "v4"), (5, "v5")])
    { cls := 0, method := 0, tag := 2 }) []

/-- `MessageImprint` (tsp.py:67-71) -/
def tsp.MessageImprint : Shape := .seq { cls := 0, method := 1, tag := 16 } [] false [
    ⟨"hash_algorithm", Id.algos.DigestAlgorithm, {}⟩,
    ⟨"hashed_message", Id.core.OctetString, {}⟩] (none)

/-- `Accuracy` (tsp.py:74-79) -/
def tsp.Accuracy : Shape := .seq { cls := 0, method := 1, tag := 16 } [] false [
    ⟨"seconds", Id.core.Integer, { optional := true }⟩,
    ⟨"millis", Id.core.Integer, { implicit := some (2, 0), optional := true }⟩,
    ⟨"micros", Id.core.Integer, { implicit := some (2, 1), optional := true }⟩] (none)

/-- `Extension` (tsp.py:82-87) -/
def tsp.Extension : Shape := .seq { cls := 0, method := 1, tag := 16 } [] false [
    ⟨"extn_id", Id.core.ObjectIdentifier, {}⟩,
    ⟨"critical", Id.core.Boolean, { default := some (.scalar (.bool false)) }⟩,
    ⟨"extn_value", Id.core.OctetString, {}⟩] (none)

/-- `Extensions` (tsp.py:90-91) -/
def tsp.Extensions : Shape := .seqOf { cls := 0, method := 1, tag := 16 } [] false (some Id.tsp.Extension)

/-- `TSTInfo` (tsp.py:94-106) -/
def tsp.TSTInfo : Shape := .seq { cls := 0, method := 1, tag := 16 } [] false [
    ⟨"version", Id.tsp.Version, {}⟩,
    ⟨"policy", Id.core.ObjectIdentifier, {}⟩,
    ⟨"message_imprint", Id.tsp.MessageImprint, {}⟩,
    ⟨"serial_number", Id.core.Integer, {}⟩,
    ⟨"gen_time", Id.core.GeneralizedTime, {}⟩,
    ⟨"accuracy", Id.tsp.Accuracy, { optional := true }⟩,
    ⟨"ordering", Id.core.Boolean, { default := some (.scalar (.bool false)) }⟩,
    ⟨"nonce", Id.core.Integer, { optional := true }⟩,
    ⟨"tsa", Id.x509.GeneralName, { explicit := [(2, 0)], optional := true }⟩,
    ⟨"extensions", Id.tsp.Extensions, { implicit := some (2, 1), optional := true }⟩] (none)

/-- `TimeStampReq` (tsp.py:109-117) -/
def tsp.TimeStampReq : Shape := .seq { cls := 0, method := 1, tag := 16 } [] false [
    ⟨"version", Id.tsp.Version, {}⟩,
    ⟨"message_imprint", Id.tsp.MessageImprint, {}⟩,
    ⟨"req_policy", Id.core.ObjectIdentifier, { optional := true }⟩,
    ⟨"nonce", Id.core.Integer, { optional := true }⟩,
    ⟨"cert_req", Id.core.Boolean, { default := some (.scalar (.bool false)) }⟩,
    ⟨"extensions", Id.tsp.Extensions, { implicit := some (2, 0), optional := true }⟩] (none)

/-- `PKIStatus` (tsp.py:120-128) -/
def tsp.PKIStatus : Shape := .leaf (.integer (some [(0, "granted"), (1, "granted_with_mods"), (2, "rejection"), (3, "waiting"), (4,
    "revocation_warning"), (5, "revocation_notification")]) { cls := 0, method := 0, tag := 2 }) []

/-- `PKIFreeText` (tsp.py:131-132) -/
def tsp.PKIFreeText : Shape := .seqOf { cls := 0, method := 1, tag := 16 } [] false (some Id.core.UTF8String)

/-- `PKIFailureInfo` (tsp.py:135-145) -/
def tsp.PKIFailureInfo : Shape := .leaf (.named [(0, "bad_alg"), (2, "bad_request"), (5, "bad_data_format"), (14, "time_not_available"), (15,
    "unaccepted_policy"), (16, "unaccepted_extensions"), (17, "add_info_not_available"), (25, "system_failure")] { cls := 0, method := 0, tag := 3 })
    []

/-- `PKIStatusInfo` (tsp.py:148-153) -/
def tsp.PKIStatusInfo : Shape := .seq { cls := 0, method := 1, tag := 16 } [] false [
    ⟨"status", Id.tsp.PKIStatus, {}⟩,
    ⟨"status_string", Id.tsp.PKIFreeText, { optional := true }⟩,
    ⟨"fail_info", Id.tsp.PKIFailureInfo, { optional := true }⟩] (none)

/-- `TimeStampResp` (tsp.py:156-160) -/
def tsp.TimeStampResp : Shape := .seq { cls := 0, method := 1, tag := 16 } [] false [
    ⟨"status", Id.tsp.PKIStatusInfo, {}⟩,
    ⟨"time_stamp_token", Id.cms.ContentInfo, {}⟩] (none)

/-- `MetaData` (tsp.py:163-169) -/
def tsp.MetaData : Shape := .seq { cls := 0, method := 1, tag := 16 } [] false [
    ⟨"hash_protected", Id.core.Boolean, {}⟩,
    ⟨"file_name", Id.core.UTF8String, { optional := true }⟩,
    ⟨"media_type", Id.core.IA5String, { optional := true }⟩,
    ⟨"other_meta_data", Id.x509.Attributes, { optional := true }⟩] (none)

/-- `TimeStampAndCRL` (tsp.py:172-176) -/
def tsp.TimeStampAndCRL : Shape := .seq { cls := 0, method := 1, tag := 16 } [] false [
    ⟨"time_stamp", Id.cms.EncapsulatedContentInfo, {}⟩,
    ⟨"crl", Id.crl.CertificateList, { optional := true }⟩] (none)

/-- `TimeStampTokenEvidence` (tsp.py:179-180) -/
def tsp.TimeStampTokenEvidence : Shape := .seqOf { cls := 0, method := 1, tag := 16 } [] false (some Id.tsp.TimeStampAndCRL)

/-- `DigestAlgorithms` (tsp.py:183-184) -/
def tsp.DigestAlgorithms : Shape := .seqOf { cls := 0, method := 1, tag := 16 } [] false (some Id.algos.DigestAlgorithm)

/-- `EncryptionInfo` (tsp.py:187-191) -/
def tsp.EncryptionInfo : Shape := .seq { cls := 0, method := 1, tag := 16 } [] false [
    ⟨"encryption_info_type", Id.core.ObjectIdentifier, {}⟩,
    ⟨"encryption_info_value", Id.core.Any, {}⟩] (none)

/-- `PartialHashtree` (tsp.py:194-195) -/
def tsp.PartialHashtree : Shape := .seqOf { cls := 0, method := 1, tag := 16 } [] false (some Id.core.OctetString)

/-- `PartialHashtrees` (tsp.py:198-199) -/
def tsp.PartialHashtrees : Shape := .seqOf { cls := 0, method := 1, tag := 16 } [] false (some Id.tsp.PartialHashtree)

/-- `ArchiveTimeStamp` (tsp.py:202-208) -/
def tsp.ArchiveTimeStamp : Shape := .seq { cls := 0, method := 1, tag := 16 } [] false [
    ⟨"digest_algorithm", Id.algos.DigestAlgorithm, { implicit := some (2, 0), optional := true }⟩,
    ⟨"attributes", Id.x509.Attributes, { implicit := some (2, 1), optional := true }⟩,
    ⟨"reduced_hashtree", Id.tsp.PartialHashtrees, { implicit := some (2, 2), optional := true }⟩,
    ⟨"time_stamp", Id.cms.ContentInfo, {}⟩] (none)

/-- `ArchiveTimeStampSequence` (tsp.py:211-212) -/
def tsp.ArchiveTimeStampSequence : Shape := .seqOf { cls := 0, method := 1, tag := 16 } [] false (some Id.tsp.ArchiveTimeStamp)

/-- `EvidenceRecord` (tsp.py:215-222) -/
def tsp.EvidenceRecord : Shape := .seq { cls := 0, method := 1, tag := 16 } [] false [
    ⟨"version", Id.tsp.Version, {}⟩,
    ⟨"digest_algorithms", Id.tsp.DigestAlgorithms, {}⟩,
    ⟨"crypto_infos", Id.x509.Attributes, { implicit := some (2, 0), optional := true }⟩,
    ⟨"encryption_info", Id.tsp.EncryptionInfo, { implicit := some (2, 1), optional := true }⟩,
    ⟨"archive_time_stamp_sequence", Id.tsp.ArchiveTimeStampSequence, {}⟩] (none)

/-- `OtherEvidence` (tsp.py:225-229) -/
def tsp.OtherEvidence : Shape := .seq { cls := 0, method := 1, tag := 16 } [] false [
    ⟨"oe_type", Id.core.ObjectIdentifier, {}⟩,
    ⟨"oe_value", Id.core.Any, {}⟩] (none)

/-- `Evidence` (tsp.py:232-237) -/
def tsp.Evidence : Shape := .choice [] none [
    ⟨"tst_evidence", Id.tsp.TimeStampTokenEvidence, { implicit := some (2, 0) }⟩,
    ⟨"ers_evidence", Id.tsp.EvidenceRecord, { implicit := some (2, 1) }⟩,
    ⟨"other_evidence", Id.tsp.OtherEvidence, { implicit := some (2, 2) }⟩]

/-- `TimeStampedData` (tsp.py:240-247) -/
def tsp.TimeStampedData : Shape := .seq { cls := 0, method := 1, tag := 16 } [] false [
    ⟨"version", Id.tsp.Version, {}⟩,
    ⟨"data_uri", Id.core.IA5String, { optional := true }⟩,
    ⟨"meta_data", Id.tsp.MetaData, { optional := true }⟩,
    ⟨"content", Id.core.OctetString, { optional := true }⟩,
    ⟨"temporal_evidence", Id.tsp.Evidence, {}⟩] (none)

/-- `IssuerSerial` (tsp.py:250-254) -/
def tsp.IssuerSerial : Shape := .seq { cls := 0, method := 1, tag := 16 } [] false [
    ⟨"issuer", Id.x509.GeneralNames, {}⟩,
    ⟨"serial_number", Id.core.Integer, {}⟩] (none)

/-- `ESSCertID` (tsp.py:257-261) -/
def tsp.ESSCertID : Shape := .seq { cls := 0, method := 1, tag := 16 } [] false [
    ⟨"cert_hash", Id.core.OctetString, {}⟩,
    ⟨"issuer_serial", Id.tsp.IssuerSerial, { optional := true }⟩] (none)

/-- `ESSCertIDs` (tsp.py:264-265) -/
def tsp.ESSCertIDs : Shape := .seqOf { cls := 0, method := 1, tag := 16 } [] false (some Id.tsp.ESSCertID)

/-- `SigningCertificate` (tsp.py:268-272) -/
def tsp.SigningCertificate : Shape := .seq { cls := 0, method := 1, tag := 16 } [] false [
    ⟨"certs", Id.tsp.ESSCertIDs, {}⟩,
    ⟨"policies", Id.x509.CertificatePolicies, { optional := true }⟩] (none)

/-- `SetOfSigningCertificates` (tsp.py:275-276) -/
def tsp.SetOfSigningCertificates : Shape := .seqOf { cls := 0, method := 1, tag := 17 } [] true (some Id.tsp.SigningCertificate)

/-- `ESSCertIDv2` (tsp.py:279-284) -/
def tsp.ESSCertIDv2 : Shape := .seq { cls := 0, method := 1, tag := 16 } [] false [
    ⟨"hash_algorithm", Id.algos.DigestAlgorithm, { default := some (.dict [("algorithm", .scalar (.str "sha256".toList))]) }⟩,
    ⟨"cert_hash", Id.core.OctetString, {}⟩,
    ⟨"issuer_serial", Id.tsp.IssuerSerial, { optional := true }⟩] (none)

/-- `ESSCertIDv2s` (tsp.py:287-288) -/
def tsp.ESSCertIDv2s : Shape := .seqOf { cls := 0, method := 1, tag := 16 } [] false (some Id.tsp.ESSCertIDv2)

/-- `SigningCertificateV2` (tsp.py:291-295) -/
def tsp.SigningCertificateV2 : Shape := .seq { cls := 0, method := 1, tag := 16 } [] false [
    ⟨"certs", Id.tsp.ESSCertIDv2s, {}⟩,
    ⟨"policies", Id.x509.CertificatePolicies, { optional := true }⟩] (none)

/-- `SetOfSigningCertificatesV2` (tsp.py:298-299) -/
def tsp.SetOfSigningCertificatesV2 : Shape := .seqOf { cls := 0, method := 1, tag := 17 } [] true (some Id.tsp.SigningCertificateV2)

/-- `MacData` (pkcs12.py:36-41) -/
def pkcs12.MacData : Shape := .seq { cls := 0, method := 1, tag := 16 } [] false [
    ⟨"mac", Id.algos.DigestInfo, {}⟩,
    ⟨"mac_salt", Id.core.OctetString, {}⟩,
    ⟨"iterations", Id.core.Integer, { default := some (.scalar (.int 1)) }⟩] (none)

/-- `Version` (pkcs12.py:44-47) -/
def pkcs12.Version : Shape := .leaf (.integer (some [(3, "v3")]) { cls := 0, method := 0, tag := 2 }) []

/-- `AttributeType` (pkcs12.py:50-60) -/
def pkcs12.AttributeType : Shape := .leaf (.oid ⟨some [("1.2.840.113549.1.9.20".toList, "friendly_name".toList), ("1.2.840.113549.1.9.21".toList,
    "local_key_id".toList), ("1.3.6.1.4.1.311.17.1".toList, "microsoft_local_machine_keyset".toList), ("2.16.840.1.113894.746875.1.1".toList,
    "trusted_key_usage".toList)], none, false⟩ { cls := 0, method := 0, tag := 6 }) []

/-- `SetOfAny` (pkcs12.py:63-64) -/
def pkcs12.SetOfAny : Shape := .seqOf { cls := 0, method := 1, tag := 17 } [] true (some Id.core.Any)

/-- `SetOfBMPString` (pkcs12.py:67-68) -/
def pkcs12.SetOfBMPString : Shape := .seqOf { cls := 0, method := 1, tag := 17 } [] true (some Id.core.BMPString)

/-- `SetOfOctetString` (pkcs12.py:71-72) -/
def pkcs12.SetOfOctetString : Shape := .seqOf { cls := 0, method := 1, tag := 17 } [] true (some Id.core.OctetString)

/-- `SetOfKeyPurposeId` (pkcs12.py:75-76) -/
def pkcs12.SetOfKeyPurposeId : Shape := .seqOf { cls := 0, method := 1, tag := 17 } [] true (some Id.x509.KeyPurposeId)

/-- `Attribute` (pkcs12.py:79-97) -/
def pkcs12.Attribute : Shape := .seq { cls := 0, method := 1, tag := 16 } [] false [
    ⟨"type", Id.pkcs12.AttributeType, {}⟩,
    ⟨"values", Id.core.Any, {}⟩] (some ⟨0, none, 1, [("friendly_name".toList, .field Id.pkcs12.SetOfBMPString), ("local_key_id".toList, .field
      Id.pkcs12.SetOfOctetString), ("microsoft_csp_name".toList, .field Id.pkcs12.SetOfBMPString), ("trusted_key_usage".toList, .field
      Id.pkcs12.SetOfKeyPurposeId)], .ok (.field Id.pkcs12.SetOfAny)⟩)

/-- `Attributes` (pkcs12.py:100-101) -/
def pkcs12.Attributes : Shape := .seqOf { cls := 0, method := 1, tag := 17 } [] true (some Id.pkcs12.Attribute)

/-- `Pfx` (pkcs12.py:104-111) -/
def pkcs12.Pfx : Shape := .seq { cls := 0, method := 1, tag := 16 } [] false [
    ⟨"version", Id.pkcs12.Version, {}⟩,
    ⟨"auth_safe", Id.cms.ContentInfo, {}⟩,
    ⟨"mac_data", Id.pkcs12.MacData, { optional := true }⟩] (none)

/-- `AuthenticatedSafe` (pkcs12.py:123-124) -/
def pkcs12.AuthenticatedSafe : Shape := .seqOf { cls := 0, method := 1, tag := 16 } [] false (some Id.cms.ContentInfo)

/-- `BagId` (pkcs12.py:127-135) -/
def pkcs12.BagId : Shape := .leaf (.oid ⟨some [("1.2.840.113549.1.12.10.1.1".toList, "key_bag".toList), ("1.2.840.113549.1.12.10.1.2".toList,
    "pkcs8_shrouded_key_bag".toList), ("1.2.840.113549.1.12.10.1.3".toList, "cert_bag".toList), ("1.2.840.113549.1.12.10.1.4".toList,
    "crl_bag".toList), ("1.2.840.113549.1.12.10.1.5".toList, "secret_bag".toList), ("1.2.840.113549.1.12.10.1.6".toList, "safe_contents".toList)],
    none, false⟩ { cls := 0, method := 0, tag := 6 }) []

/-- `CertId` (pkcs12.py:138-142) -/
def pkcs12.CertId : Shape := .leaf (.oid ⟨some [("1.2.840.113549.1.9.22.1".toList, "x509".toList), ("1.2.840.113549.1.9.22.2".toList, "sdsi".toList)],
    none, false⟩ { cls := 0, method := 0, tag := 6 }) []

/-- `CertBag` (pkcs12.py:145-154) -/
def pkcs12.CertBag : Shape := .seq { cls := 0, method := 1, tag := 16 } [] false [
    ⟨"cert_id", Id.pkcs12.CertId, {}⟩,
    ⟨"cert_value", Id.core.ParsableOctetString, { explicit := [(2, 0)] }⟩] (some ⟨0, none, 1, [("x509".toList, .value Id.x509.Certificate)], .ok
      .same⟩)

/-- `CrlBag` (pkcs12.py:157-161) -/
def pkcs12.CrlBag : Shape := .seq { cls := 0, method := 1, tag := 16 } [] false [
    ⟨"crl_id", Id.core.ObjectIdentifier, {}⟩,
    ⟨"crl_value", Id.core.OctetString, { explicit := [(2, 0)] }⟩] (none)

/-- `SecretBag` (pkcs12.py:164-168) -/
def pkcs12.SecretBag : Shape := .seq { cls := 0, method := 1, tag := 16 } [] false [
    ⟨"secret_type_id", Id.core.ObjectIdentifier, {}⟩,
    ⟨"secret_value", Id.core.OctetString, { explicit := [(2, 0)] }⟩] (none)

/-- `SafeContents` (pkcs12.py:171-171, pkcs12.py:193) -/
def pkcs12.SafeContents : Shape := .seqOf { cls := 0, method := 1, tag := 16 } [] false (some Id.pkcs12.SafeBag)

/-- `SafeBag` (pkcs12.py:175-190) -/
def pkcs12.SafeBag : Shape := .seq { cls := 0, method := 1, tag := 16 } [] false [
    ⟨"bag_id", Id.pkcs12.BagId, {}⟩,
    ⟨"bag_value", Id.core.Any, { explicit := [(2, 0)] }⟩,
    ⟨"bag_attributes", Id.pkcs12.Attributes, { optional := true }⟩] (some ⟨0, none, 1, [("key_bag".toList, .value Id.keys.PrivateKeyInfo),
      ("pkcs8_shrouded_key_bag".toList, .value Id.keys.EncryptedPrivateKeyInfo), ("cert_bag".toList, .value Id.pkcs12.CertBag), ("crl_bag".toList,
      .value Id.pkcs12.CrlBag), ("secret_bag".toList, .value Id.pkcs12.SecretBag), ("safe_contents".toList, .value Id.pkcs12.SafeContents)], .ok
      .same⟩)

/-- `AdobeArchiveRevInfo` (pdf.py:31-34) -/
def pdf.AdobeArchiveRevInfo : Shape := .seq { cls := 0, method := 1, tag := 16 } [] false [
    ⟨"version", Id.core.Integer, {}⟩] (none)

/-- `AdobeTimestamp` (pdf.py:37-42) -/
def pdf.AdobeTimestamp : Shape := .seq { cls := 0, method := 1, tag := 16 } [] false [
    ⟨"version", Id.core.Integer, {}⟩,
    ⟨"location", Id.x509.GeneralName, {}⟩,
    ⟨"requires_auth", Id.core.Boolean, { optional := true, default := some (.scalar (.bool false)) }⟩] (none)

/-- `OtherRevInfo` (pdf.py:45-49) -/
def pdf.OtherRevInfo : Shape := .seq { cls := 0, method := 1, tag := 16 } [] false [
    ⟨"type", Id.core.ObjectIdentifier, {}⟩,
    ⟨"value", Id.core.OctetString, {}⟩] (none)

/-- `SequenceOfCertificateList` (pdf.py:52-53) -/
def pdf.SequenceOfCertificateList : Shape := .seqOf { cls := 0, method := 1, tag := 16 } [] false (some Id.crl.CertificateList)

/-- `SequenceOfOCSPResponse` (pdf.py:56-57) -/
def pdf.SequenceOfOCSPResponse : Shape := .seqOf { cls := 0, method := 1, tag := 16 } [] false (some Id.ocsp.OCSPResponse)

/-- `SequenceOfOtherRevInfo` (pdf.py:60-61) -/
def pdf.SequenceOfOtherRevInfo : Shape := .seqOf { cls := 0, method := 1, tag := 16 } [] false (some Id.pdf.OtherRevInfo)

/-- `RevocationInfoArchival` (pdf.py:64-69) -/
def pdf.RevocationInfoArchival : Shape := .seq { cls := 0, method := 1, tag := 16 } [] false [
    ⟨"crl", Id.pdf.SequenceOfCertificateList, { explicit := [(2, 0)], optional := true }⟩,
    ⟨"ocsp", Id.pdf.SequenceOfOCSPResponse, { explicit := [(2, 1)], optional := true }⟩,
    ⟨"other_rev_info", Id.pdf.SequenceOfOtherRevInfo, { explicit := [(2, 2)], optional := true }⟩] (none)

/-- `SetOfRevocationInfoArchival` (pdf.py:72-73) -/
def pdf.SetOfRevocationInfoArchival : Shape := .seqOf { cls := 0, method := 1, tag := 17 } [] true (some Id.pdf.RevocationInfoArchival)

/-- A `SequenceOf` made with `spec=ObjectIdentifier` (core.py:4209-4210). -/
def spec.SequenceOfObjectIdentifier : Shape := .seqOf { cls := 0, method := 1, tag := 16 } [] false (some Id.core.ObjectIdentifier)

/-- A `SetOf` made with `spec=Any` (core.py:4209-4210). -/
def spec.SetOfAny : Shape := .seqOf { cls := 0, method := 1, tag := 17 } [] true (some Id.core.Any)

/-- `CountryName` (x509.py:1192-1199) -/
def x509.CountryName : Shape := .choice [] (some (1, 1)) [
    ⟨"x121_dcc_code", Id.core.NumericString, {}⟩,
    ⟨"iso_3166_alpha2_code", Id.core.PrintableString, {}⟩]

/-- `AdministrationDomainName` (x509.py:1202-1209) -/
def x509.AdministrationDomainName : Shape := .choice [] (some (1, 2)) [
    ⟨"numeric", Id.core.NumericString, {}⟩,
    ⟨"printable", Id.core.PrintableString, {}⟩]

/-- `BuiltInStandardAttributes` (x509.py:1245-1256) -/
def x509.BuiltInStandardAttributes : Shape := .seq { cls := 0, method := 1, tag := 16 } [] false [
    ⟨"country_name", Id.x509.CountryName, { optional := true }⟩,
    ⟨"administration_domain_name", Id.x509.AdministrationDomainName, { optional := true }⟩,
    ⟨"network_address", Id.core.NumericString, { implicit := some (2, 0), optional := true }⟩,
    ⟨"terminal_identifier", Id.core.PrintableString, { implicit := some (2, 1), optional := true }⟩,
    ⟨"private_domain_name", Id.x509.PrivateDomainName, { explicit := [(2, 2)], optional := true }⟩,
    ⟨"organization_name", Id.core.PrintableString, { implicit := some (2, 3), optional := true }⟩,
    ⟨"numeric_user_identifier", Id.core.NumericString, { implicit := some (2, 4), optional := true }⟩,
    ⟨"personal_name", Id.x509.PersonalName, { implicit := some (2, 5), optional := true }⟩,
    ⟨"organizational_unit_names", Id.x509.OrganizationalUnitNames, { implicit := some (2, 6), optional := true }⟩] (none)

/-- `ORAddress` (x509.py:1417-1422) -/
def x509.ORAddress : Shape := .seq { cls := 0, method := 1, tag := 16 } [] false [
    ⟨"built_in_standard_attributes", Id.x509.BuiltInStandardAttributes, {}⟩,
    ⟨"built_in_domain_defined_attributes", Id.x509.BuiltInDomainDefinedAttributes, { optional := true }⟩,
    ⟨"extension_attributes", Id.x509.ExtensionAttributes, { optional := true }⟩] (none)

/-- `EDIPartyName` (x509.py:1425-1429) -/
def x509.EDIPartyName : Shape := .seq { cls := 0, method := 1, tag := 16 } [] false [
    ⟨"name_assigner", Id.x509.DirectoryString, { implicit := some (2, 0), optional := true }⟩,
    ⟨"party_name", Id.x509.DirectoryString, { implicit := some (2, 1) }⟩] (none)

/-- `AttributeCertificateV1` (cms.py:235-240) -/
def cms.AttributeCertificateV1 : Shape := .seq { cls := 0, method := 1, tag := 16 } [] false [
    ⟨"ac_info", Id.cms.AttributeCertificateInfoV1, {}⟩,
    ⟨"signature_algorithm", Id.algos.SignedDigestAlgorithm, {}⟩,
    ⟨"signature", Id.core.OctetBitString, {}⟩] (none)

/-! ### All of them -/

/-- A search tree. -/
inductive Tree where
  | one (s : Shape)
  | two (k : Nat) (l r : Tree)

/-- The class with the number. -/
def Tree.get (c : Nat) : Tree → Shape
  | .one s => s
  | .two k l r => bif Nat.blt c k then l.get c else r.get c

/-- Classes 0 to 23. -/
def part0 (K : Codecs) : Tree := .two 12 (.two 6 (.two 3 (.two 1 (.one core.Any) (.two 2 (.one core.Boolean) (.one core.Integer))) (.two 4 (.one
    core.BitString) (.two 5 (.one core.OctetBitString) (.one core.IntegerBitString)))) (.two 9 (.two 7 (.one core.OctetString) (.two 8 (.one
    core.IntegerOctetString) (.one core.ParsableOctetString))) (.two 10 (.one core.ParsableOctetBitString) (.two 11 (.one core.Null) (.one
    core.ObjectIdentifier))))) (.two 18 (.two 15 (.two 13 (.one core.Enumerated) (.two 14 (.one (core.UTF8String K)) (.one core.RelativeOid))) (.two
    16 (.one core.Sequence) (.two 17 (.one core.SequenceOf) (.one core.Set)))) (.two 21 (.two 19 (.one core.SetOf) (.two 20 (.one core.EmbeddedPdv)
    (.one (core.NumericString K)))) (.two 22 (.one (core.PrintableString K)) (.two 23 (.one (core.TeletexString K)) (.one core.VideotexString)))))

/-- Classes 24 to 47. -/
def part1 (K : Codecs) : Tree := .two 36 (.two 30 (.two 27 (.two 25 (.one (core.IA5String K)) (.two 26 (.one (core.UTCTime K)) (.one
    (core.GeneralizedTime K)))) (.two 28 (.one (core.GraphicString K)) (.two 29 (.one (core.VisibleString K)) (.one (core.GeneralString K))))) (.two
    33 (.two 31 (.one (core.UniversalString K)) (.two 32 (.one (core.CharacterString K)) (.one (core.BMPString K)))) (.two 34 (.one
    algos.AlgorithmIdentifier) (.two 35 (.one algos.HmacAlgorithmId) (.one algos.HmacAlgorithm))))) (.two 42 (.two 39 (.two 37 (.one
    algos.DigestAlgorithmId) (.two 38 (.one algos.DigestAlgorithm) (.one algos.DigestInfo))) (.two 40 (.one algos.MaskGenAlgorithmId) (.two 41 (.one
    algos.MaskGenAlgorithm) (.one algos.TrailerField)))) (.two 45 (.two 43 (.one algos.RSASSAPSSParams) (.two 44 (.one algos.SignedDigestAlgorithmId)
    (.one algos.SignedDigestAlgorithm))) (.two 46 (.one algos.Pbkdf2Salt) (.two 47 (.one algos.Pbkdf2Params) (.one algos.ScryptParams)))))

/-- Classes 48 to 71. -/
def part2 (K : Codecs) : Tree := .two 60 (.two 54 (.two 51 (.two 49 (.one algos.KdfAlgorithmId) (.two 50 (.one algos.KdfAlgorithm) (.one
    algos.DHParameters))) (.two 52 (.one algos.KeyExchangeAlgorithmId) (.two 53 (.one algos.KeyExchangeAlgorithm) (.one algos.Rc2Params)))) (.two 57
    (.two 55 (.one algos.Rc5ParamVersion) (.two 56 (.one algos.Rc5Params) (.one algos.Pbes1Params))) (.two 58 (.one algos.CcmParams) (.two 59 (.one
    algos.PSourceAlgorithmId) (.one algos.PSourceAlgorithm))))) (.two 66 (.two 63 (.two 61 (.one algos.RSAESOAEPParams) (.two 62 (.one
    algos.DSASignature) (.one algos.EncryptionAlgorithmId))) (.two 64 (.one algos.EncryptionAlgorithm) (.two 65 (.one algos.Pbes2Params) (.one
    algos.Pbmac1Params)))) (.two 69 (.two 67 (.one algos.Pkcs5MacId) (.two 68 (.one algos.Pkcs5MacAlgorithm) (.one algos.AnyAlgorithmId))) (.two 70
    (.one algos.AnyAlgorithmIdentifier) (.two 71 (.one keys.OtherPrimeInfo) (.one keys.OtherPrimeInfos)))))

/-- Classes 72 to 95. -/
def part3 (K : Codecs) : Tree := .two 84 (.two 78 (.two 75 (.two 73 (.one keys.RSAPrivateKeyVersion) (.two 74 (.one keys.RSAPrivateKey) (.one
    keys.RSAPublicKey))) (.two 76 (.one keys.DSAPrivateKey) (.two 77 (.one keys.ECPoint) (.one keys.ECPointBitString)))) (.two 81 (.two 79 (.one
    keys.SpecifiedECDomainVersion) (.two 80 (.one keys.FieldType) (.one keys.CharacteristicTwoBasis))) (.two 82 (.one keys.Pentanomial) (.two 83 (.one
    keys.CharacteristicTwo) (.one keys.FieldID))))) (.two 90 (.two 87 (.two 85 (.one keys.Curve) (.two 86 (.one keys.SpecifiedECDomain) (.one
    keys.NamedCurve))) (.two 88 (.one keys.ECDomainParameters) (.two 89 (.one keys.ECPrivateKeyVersion) (.one keys.ECPrivateKey)))) (.two 93 (.two 91
    (.one keys.DSAParams) (.two 92 (.one keys.Attribute) (.one keys.Attributes))) (.two 94 (.one keys.PrivateKeyAlgorithmId) (.two 95 (.one
    keys.PrivateKeyAlgorithm) (.one keys.PrivateKeyInfo)))))

/-- Classes 96 to 119. -/
def part4 (K : Codecs) : Tree := .two 108 (.two 102 (.two 99 (.two 97 (.one keys.EncryptedPrivateKeyInfo) (.two 98 (.one keys.ValidationParms) (.one
    keys.DomainParameters))) (.two 100 (.one keys.PublicKeyAlgorithmId) (.two 101 (.one keys.PublicKeyAlgorithm) (.one keys.PublicKeyInfo)))) (.two
    105 (.two 103 (.one (x509.DNSName K)) (.two 104 (.one (x509.URI K)) (.one (x509.EmailAddress K)))) (.two 106 (.one (x509.IPAddress K)) (.two 107
    (.one x509.Attribute) (.one x509.Attributes))))) (.two 114 (.two 111 (.two 109 (.one x509.KeyUsage) (.two 110 (.one x509.PrivateKeyUsagePeriod)
    (.one (x509.NotReallyTeletexString K)))) (.two 112 (.one x509.DirectoryString) (.two 113 (.one x509.NameType) (.one x509.NameTypeAndValue))))
    (.two 117 (.two 115 (.one x509.RelativeDistinguishedName) (.two 116 (.one x509.RDNSequence) (.one x509.Name))) (.two 118 (.one x509.AnotherName)
    (.two 119 (.one x509.PrivateDomainName) (.one x509.PersonalName)))))

/-- Classes 120 to 143. -/
def part5 (K : Codecs) : Tree := .two 132 (.two 126 (.two 123 (.two 121 (.one x509.TeletexPersonalName) (.two 122 (.one x509.OrganizationalUnitNames)
    (.one x509.TeletexOrganizationalUnitNames))) (.two 124 (.one x509.BuiltInDomainDefinedAttribute) (.two 125 (.one
    x509.BuiltInDomainDefinedAttributes) (.one x509.TeletexDomainDefinedAttribute)))) (.two 129 (.two 127 (.one x509.TeletexDomainDefinedAttributes)
    (.two 128 (.one x509.PhysicalDeliveryCountryName) (.one x509.PostalCode))) (.two 130 (.one x509.PDSParameter) (.two 131 (.one
    x509.PrintableAddress) (.one x509.UnformattedPostalAddress))))) (.two 138 (.two 135 (.two 133 (.one x509.E1634Address) (.two 134 (.one
    x509.NAddresses) (.one x509.PresentationAddress))) (.two 136 (.one x509.ExtendedNetworkAddress) (.two 137 (.one x509.TerminalType) (.one
    x509.ExtensionAttributeType)))) (.two 141 (.two 139 (.one x509.ExtensionAttribute) (.two 140 (.one x509.ExtensionAttributes) (.one
    x509.GeneralName))) (.two 142 (.one x509.GeneralNames) (.two 143 (.one x509.Time) (.one x509.Validity)))))

/-- Classes 144 to 167. -/
def part6 (K : Codecs) : Tree := .two 156 (.two 150 (.two 147 (.two 145 (.one x509.BasicConstraints) (.two 146 (.one x509.AuthorityKeyIdentifier)
    (.one x509.DistributionPointName))) (.two 148 (.one x509.ReasonFlags) (.two 149 (.one x509.GeneralSubtree) (.one x509.GeneralSubtrees)))) (.two
    153 (.two 151 (.one x509.NameConstraints) (.two 152 (.one x509.DistributionPoint) (.one x509.CRLDistributionPoints))) (.two 154 (.one
    x509.DisplayText) (.two 155 (.one x509.NoticeNumbers) (.one x509.NoticeReference))))) (.two 162 (.two 159 (.two 157 (.one x509.UserNotice) (.two
    158 (.one x509.PolicyQualifierId) (.one x509.PolicyQualifierInfo))) (.two 160 (.one x509.PolicyQualifierInfos) (.two 161 (.one
    x509.PolicyIdentifier) (.one x509.PolicyInformation)))) (.two 165 (.two 163 (.one x509.CertificatePolicies) (.two 164 (.one x509.PolicyMapping)
    (.one x509.PolicyMappings))) (.two 166 (.one x509.PolicyConstraints) (.two 167 (.one x509.KeyPurposeId) (.one x509.ExtKeyUsageSyntax)))))

/-- Classes 168 to 191. -/
def part7 (K : Codecs) : Tree := .two 180 (.two 174 (.two 171 (.two 169 (.one x509.AccessMethod) (.two 170 (.one x509.AccessDescription) (.one
    x509.AuthorityInfoAccessSyntax))) (.two 172 (.one x509.SubjectInfoAccessSyntax) (.two 173 (.one x509.Features) (.one x509.EntrustVersionInfo))))
    (.two 177 (.two 175 (.one x509.NetscapeCertificateType) (.two 176 (.one x509.Version) (.one x509.TPMSpecification))) (.two 178 (.one
    x509.SetOfTPMSpecification) (.two 179 (.one x509.TCGSpecificationVersion) (.one x509.TCGPlatformSpecification))))) (.two 186 (.two 183 (.two 181
    (.one x509.SetOfTCGPlatformSpecification) (.two 182 (.one x509.EKGenerationType) (.one x509.EKGenerationLocation))) (.two 184 (.one
    x509.EKCertificateGenerationLocation) (.two 185 (.one x509.EvaluationAssuranceLevel) (.one x509.EvaluationStatus)))) (.two 189 (.two 187 (.one
    x509.StrengthOfFunction) (.two 188 (.one x509.URIReference) (.one x509.CommonCriteriaMeasures))) (.two 190 (.one x509.SecurityLevel) (.two 191
    (.one x509.FIPSLevel) (.one x509.TPMSecurityAssertions)))))

/-- Classes 192 to 215. -/
def part8 (K : Codecs) : Tree := .two 204 (.two 198 (.two 195 (.two 193 (.one x509.SetOfTPMSecurityAssertions) (.two 194 (.one
    x509.SubjectDirectoryAttributeId) (.one x509.SetOfGeneralizedTime))) (.two 196 (.one x509.SetOfDirectoryString) (.two 197 (.one
    x509.SetOfPrintableString) (.one x509.SupportedAlgorithm)))) (.two 201 (.two 199 (.one x509.SetOfSupportedAlgorithm) (.two 200 (.one
    x509.SubjectDirectoryAttribute) (.one x509.SubjectDirectoryAttributes))) (.two 202 (.one x509.ExtensionId) (.two 203 (.one x509.Extension) (.one
    x509.Extensions))))) (.two 210 (.two 207 (.two 205 (.one x509.TbsCertificate) (.two 206 (.one x509.Certificate) (.one
    x509.KeyPurposeIdentifiers))) (.two 208 (.one x509.SequenceOfAlgorithmIdentifiers) (.two 209 (.one x509.CertificateAux) (.one crl.Version))))
    (.two 213 (.two 211 (.one crl.IssuingDistributionPoint) (.two 212 (.one crl.TBSCertListExtensionId) (.one crl.TBSCertListExtension))) (.two 214
    (.one crl.TBSCertListExtensions) (.two 215 (.one crl.CRLReason) (.one crl.CRLEntryExtensionId)))))

/-- Classes 216 to 239. -/
def part9 (K : Codecs) : Tree := .two 228 (.two 222 (.two 219 (.two 217 (.one crl.CRLEntryExtension) (.two 218 (.one crl.CRLEntryExtensions) (.one
    crl.RevokedCertificate))) (.two 220 (.one crl.RevokedCertificates) (.two 221 (.one crl.TbsCertList) (.one crl.CertificateList)))) (.two 225 (.two
    223 (.one ocsp.Version) (.two 224 (.one ocsp.CertId) (.one ocsp.ServiceLocator))) (.two 226 (.one ocsp.RequestExtensionId) (.two 227 (.one
    ocsp.RequestExtension) (.one ocsp.RequestExtensions))))) (.two 234 (.two 231 (.two 229 (.one ocsp.Request) (.two 230 (.one ocsp.Requests) (.one
    ocsp.ResponseType))) (.two 232 (.one ocsp.AcceptableResponses) (.two 233 (.one ocsp.PreferredSignatureAlgorithm) (.one
    ocsp.PreferredSignatureAlgorithms)))) (.two 237 (.two 235 (.one ocsp.TBSRequestExtensionId) (.two 236 (.one ocsp.TBSRequestExtension) (.one
    ocsp.TBSRequestExtensions))) (.two 238 (.one ocsp.TBSRequest) (.two 239 (.one ocsp.Certificates) (.one ocsp.Signature)))))

/-- Classes 240 to 263. -/
def part10 (K : Codecs) : Tree := .two 252 (.two 246 (.two 243 (.two 241 (.one ocsp.OCSPRequest) (.two 242 (.one ocsp.OCSPResponseStatus) (.one
    ocsp.ResponderId))) (.two 244 (.one ocsp.StatusGood) (.two 245 (.one ocsp.StatusUnknown) (.one ocsp.RevokedInfo)))) (.two 249 (.two 247 (.one
    ocsp.CertStatus) (.two 248 (.one ocsp.CrlId) (.one ocsp.SingleResponseExtensionId))) (.two 250 (.one ocsp.SingleResponseExtension) (.two 251 (.one
    ocsp.SingleResponseExtensions) (.one ocsp.SingleResponse))))) (.two 258 (.two 255 (.two 253 (.one ocsp.Responses) (.two 254 (.one
    ocsp.ResponseDataExtensionId) (.one ocsp.ResponseDataExtension))) (.two 256 (.one ocsp.ResponseDataExtensions) (.two 257 (.one ocsp.ResponseData)
    (.one ocsp.BasicOCSPResponse)))) (.two 261 (.two 259 (.one ocsp.ResponseBytes) (.two 260 (.one ocsp.OCSPResponse) (.one csr.Version))) (.two 262
    (.one csr.CSRAttributeType) (.two 263 (.one csr.SetOfDirectoryString) (.one csr.Attribute)))))

/-- Classes 264 to 287. -/
def part11 (K : Codecs) : Tree := .two 276 (.two 270 (.two 267 (.two 265 (.one csr.SetOfAttributes) (.two 266 (.one csr.SetOfExtensions) (.one
    csr.MicrosoftEnrollmentCSProvider))) (.two 268 (.one csr.SetOfMicrosoftEnrollmentCSProvider) (.two 269 (.one csr.MicrosoftRequestClientInfo) (.one
    csr.SetOfMicrosoftRequestClientInfo)))) (.two 273 (.two 271 (.one csr.CRIAttribute) (.two 272 (.one csr.CRIAttributes) (.one
    csr.CertificationRequestInfo))) (.two 274 (.one csr.CertificationRequest) (.two 275 (.one cms.ExtendedCertificateInfo) (.one
    cms.ExtendedCertificate))))) (.two 282 (.two 279 (.two 277 (.one cms.CMSVersion) (.two 278 (.one cms.CMSAttributeType) (.one cms.Time))) (.two 280
    (.one cms.ContentType) (.two 281 (.one cms.CMSAlgorithmProtection) (.one cms.SetOfContentType)))) (.two 285 (.two 283 (.one cms.SetOfOctetString)
    (.two 284 (.one cms.SetOfTime) (.one cms.SetOfAny))) (.two 286 (.one cms.SetOfCMSAlgorithmProtection) (.two 287 (.one cms.CMSAttribute) (.one
    cms.CMSAttributes)))))

/-- Classes 288 to 311. -/
def part12 (K : Codecs) : Tree := .two 300 (.two 294 (.two 291 (.two 289 (.one cms.IssuerSerial) (.two 290 (.one cms.AttCertVersion) (.one
    cms.AttCertSubject))) (.two 292 (.one cms.AttCertValidityPeriod) (.two 293 (.one cms.AttributeCertificateInfoV1) (.one cms.DigestedObjectType))))
    (.two 297 (.two 295 (.one cms.ObjectDigestInfo) (.two 296 (.one cms.Holder) (.one cms.V2Form))) (.two 298 (.one cms.AttCertIssuer) (.two 299 (.one
    cms.IetfAttrValue) (.one cms.IetfAttrValues))))) (.two 306 (.two 303 (.two 301 (.one cms.IetfAttrSyntax) (.two 302 (.one cms.SetOfIetfAttrSyntax)
    (.one cms.SvceAuthInfo))) (.two 304 (.one cms.SetOfSvceAuthInfo) (.two 305 (.one cms.RoleSyntax) (.one cms.SetOfRoleSyntax)))) (.two 309 (.two 307
    (.one cms.ClassList) (.two 308 (.one cms.SecurityCategory) (.one cms.SetOfSecurityCategory))) (.two 310 (.one cms.Clearance) (.two 311 (.one
    cms.SetOfClearance) (.one cms.BigTime)))))

/-- Classes 312 to 335. -/
def part13 (K : Codecs) : Tree := .two 324 (.two 318 (.two 315 (.two 313 (.one cms.LeapData) (.two 314 (.one cms.SetOfLeapData) (.one
    cms.TimingMetrics))) (.two 316 (.one cms.SetOfTimingMetrics) (.two 317 (.one cms.TimingPolicy) (.one cms.SetOfTimingPolicy)))) (.two 321 (.two 319
    (.one cms.AttCertAttributeType) (.two 320 (.one cms.AttCertAttribute) (.one cms.AttCertAttributes))) (.two 322 (.one
    cms.AttributeCertificateInfoV2) (.two 323 (.one cms.AttributeCertificateV2) (.one cms.OtherCertificateFormat))))) (.two 330 (.two 327 (.two 325
    (.one cms.CertificateChoices) (.two 326 (.one cms.CertificateSet) (.one cms.ContentInfo))) (.two 328 (.one cms.SetOfContentInfo) (.two 329 (.one
    cms.EncapsulatedContentInfo) (.one cms.IssuerAndSerialNumber)))) (.two 333 (.two 331 (.one cms.SignerIdentifier) (.two 332 (.one
    cms.DigestAlgorithms) (.one cms.CertificateRevocationLists))) (.two 334 (.one cms.SCVPReqRes) (.two 335 (.one cms.OtherRevInfoFormatId) (.one
    cms.OtherRevocationInfoFormat)))))

/-- Classes 336 to 359. -/
def part14 (K : Codecs) : Tree := .two 348 (.two 342 (.two 339 (.two 337 (.one cms.RevocationInfoChoice) (.two 338 (.one cms.RevocationInfoChoices)
    (.one cms.SignerInfo))) (.two 340 (.one cms.SignerInfos) (.two 341 (.one cms.SignedData) (.one cms.OriginatorInfo)))) (.two 345 (.two 343 (.one
    cms.RecipientIdentifier) (.two 344 (.one cms.KeyEncryptionAlgorithmId) (.one cms.KeyEncryptionAlgorithm))) (.two 346 (.one
    cms.KeyTransRecipientInfo) (.two 347 (.one cms.OriginatorIdentifierOrKey) (.one cms.OtherKeyAttribute))))) (.two 354 (.two 351 (.two 349 (.one
    cms.RecipientKeyIdentifier) (.two 350 (.one cms.KeyAgreementRecipientIdentifier) (.one cms.RecipientEncryptedKey))) (.two 352 (.one
    cms.RecipientEncryptedKeys) (.two 353 (.one cms.KeyAgreeRecipientInfo) (.one cms.KEKIdentifier)))) (.two 357 (.two 355 (.one cms.KEKRecipientInfo)
    (.two 356 (.one cms.PasswordRecipientInfo) (.one cms.OtherRecipientInfo))) (.two 358 (.one cms.RecipientInfo) (.two 359 (.one cms.RecipientInfos)
    (.one cms.EncryptedContentInfo)))))

/-- Classes 360 to 383. -/
def part15 (K : Codecs) : Tree := .two 372 (.two 366 (.two 363 (.two 361 (.one cms.EnvelopedData) (.two 362 (.one cms.SignedAndEnvelopedData) (.one
    cms.DigestedData))) (.two 364 (.one cms.EncryptedData) (.two 365 (.one cms.AuthenticatedData) (.one cms.AuthEnvelopedData)))) (.two 369 (.two 367
    (.one cms.CompressionAlgorithmId) (.two 368 (.one cms.CompressionAlgorithm) (.one cms.CompressedData))) (.two 370 (.one
    cms.SMIMEEncryptionKeyPreference) (.two 371 (.one cms.SMIMEEncryptionKeyPreferences) (.one cms.SMIMECapabilityIdentifier))))) (.two 378 (.two 375
    (.two 373 (.one cms.SMIMECapabilites) (.two 374 (.one cms.SetOfSMIMECapabilites) (.one tsp.Version))) (.two 376 (.one tsp.MessageImprint) (.two
    377 (.one tsp.Accuracy) (.one tsp.Extension)))) (.two 381 (.two 379 (.one tsp.Extensions) (.two 380 (.one tsp.TSTInfo) (.one tsp.TimeStampReq)))
    (.two 382 (.one tsp.PKIStatus) (.two 383 (.one tsp.PKIFreeText) (.one tsp.PKIFailureInfo)))))

/-- Classes 384 to 407. -/
def part16 (K : Codecs) : Tree := .two 396 (.two 390 (.two 387 (.two 385 (.one tsp.PKIStatusInfo) (.two 386 (.one tsp.TimeStampResp) (.one
    tsp.MetaData))) (.two 388 (.one tsp.TimeStampAndCRL) (.two 389 (.one tsp.TimeStampTokenEvidence) (.one tsp.DigestAlgorithms)))) (.two 393 (.two
    391 (.one tsp.EncryptionInfo) (.two 392 (.one tsp.PartialHashtree) (.one tsp.PartialHashtrees))) (.two 394 (.one tsp.ArchiveTimeStamp) (.two 395
    (.one tsp.ArchiveTimeStampSequence) (.one tsp.EvidenceRecord))))) (.two 402 (.two 399 (.two 397 (.one tsp.OtherEvidence) (.two 398 (.one
    tsp.Evidence) (.one tsp.TimeStampedData))) (.two 400 (.one tsp.IssuerSerial) (.two 401 (.one tsp.ESSCertID) (.one tsp.ESSCertIDs)))) (.two 405
    (.two 403 (.one tsp.SigningCertificate) (.two 404 (.one tsp.SetOfSigningCertificates) (.one tsp.ESSCertIDv2))) (.two 406 (.one tsp.ESSCertIDv2s)
    (.two 407 (.one tsp.SigningCertificateV2) (.one tsp.SetOfSigningCertificatesV2)))))

/-- Classes 408 to 431. -/
def part17 (K : Codecs) : Tree := .two 420 (.two 414 (.two 411 (.two 409 (.one pkcs12.MacData) (.two 410 (.one pkcs12.Version) (.one
    pkcs12.AttributeType))) (.two 412 (.one pkcs12.SetOfAny) (.two 413 (.one pkcs12.SetOfBMPString) (.one pkcs12.SetOfOctetString)))) (.two 417 (.two
    415 (.one pkcs12.SetOfKeyPurposeId) (.two 416 (.one pkcs12.Attribute) (.one pkcs12.Attributes))) (.two 418 (.one pkcs12.Pfx) (.two 419 (.one
    pkcs12.AuthenticatedSafe) (.one pkcs12.BagId))))) (.two 426 (.two 423 (.two 421 (.one pkcs12.CertId) (.two 422 (.one pkcs12.CertBag) (.one
    pkcs12.CrlBag))) (.two 424 (.one pkcs12.SecretBag) (.two 425 (.one pkcs12.SafeContents) (.one pkcs12.SafeBag)))) (.two 429 (.two 427 (.one
    pdf.AdobeArchiveRevInfo) (.two 428 (.one pdf.AdobeTimestamp) (.one pdf.OtherRevInfo))) (.two 430 (.one pdf.SequenceOfCertificateList) (.two 431
    (.one pdf.SequenceOfOCSPResponse) (.one pdf.SequenceOfOtherRevInfo)))))

/-- Classes 432 to 441. -/
def part18 (K : Codecs) : Tree := .two 437 (.two 434 (.two 433 (.one pdf.RevocationInfoArchival) (.one pdf.SetOfRevocationInfoArchival)) (.two 435
    (.one spec.SequenceOfObjectIdentifier) (.two 436 (.one spec.SetOfAny) (.one x509.CountryName)))) (.two 439 (.two 438 (.one
    x509.AdministrationDomainName) (.one x509.BuiltInStandardAttributes)) (.two 440 (.one x509.ORAddress) (.two 441 (.one x509.EDIPartyName) (.one
    cms.AttributeCertificateV1))))

/-- All classes. -/
def tree (K : Codecs) : Tree := .two 216 (.two 96 (.two 48 (.two 24 (part0 K) (part1 K)) (.two 72 (part2 K) (part3 K))) (.two 144 (.two 120 (part4 K)
    (part5 K)) (.two 168 (part6 K) (.two 192 (part7 K) (part8 K))))) (.two 336 (.two 264 (.two 240 (part9 K) (part10 K)) (.two 288 (part11 K) (.two
    312 (part12 K) (part13 K)))) (.two 384 (.two 360 (part14 K) (part15 K)) (.two 408 (part16 K) (.two 432 (part17 K) (part18 K)))))

/-- `_UNIVERSAL_SPECS` (core.py:5406-5435) without the classes that are missing. -/
def universal : Nat → Option ClassId
  | 1 => some Id.core.Boolean
  | 2 => some Id.core.Integer
  | 3 => some Id.core.BitString
  | 4 => some Id.core.OctetString
  | 5 => some Id.core.Null
  | 6 => some Id.core.ObjectIdentifier
  | 10 => some Id.core.Enumerated
  | 11 => some Id.core.EmbeddedPdv
  | 12 => some Id.core.UTF8String
  | 13 => some Id.core.RelativeOid
  | 16 => some Id.core.Sequence
  | 17 => some Id.core.Set
  | 18 => some Id.core.NumericString
  | 19 => some Id.core.PrintableString
  | 20 => some Id.core.TeletexString
  | 21 => some Id.core.VideotexString
  | 22 => some Id.core.IA5String
  | 23 => some Id.core.UTCTime
  | 24 => some Id.core.GeneralizedTime
  | 25 => some Id.core.GraphicString
  | 26 => some Id.core.VisibleString
  | 27 => some Id.core.GeneralString
  | 28 => some Id.core.UniversalString
  | 29 => some Id.core.CharacterString
  | 30 => some Id.core.BMPString
  | _ => none

/-- The package. -/
def env (K : Codecs) : Env := ⟨fun c => (tree K).get c, universal⟩

end Asn1.Pkg
