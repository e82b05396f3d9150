import Verif.Gen.GCC2
import Verif.Gen.GCC2Eom
import Verif.Gen.GCCD
import Verif.Gen.GCCDEom
import Verif.Gen.GCCSD
import Verif.Gen.GCCSDEom
import Verif.Gen.GCCSDT
import Verif.Gen.GCCSDTQ
import Verif.Gen.GCCSD_SD_1_1
import Verif.Gen.GCCSD_SD_1_2
import Verif.Gen.GCCSD_S_1_1
import Verif.Gen.GLCCD
import Verif.Gen.GLCCSD
import Verif.Gen.GMP2
import Verif.Gen.GMP2Eom
import Verif.Gen.GMP3
import Verif.Gen.GQCISD
import Verif.Gen.GecCC
import Verif.Gen.GecCCExt
import Verif.Gen.Hints.Amps
import Verif.Gen.Hints.Bosons
import Verif.Gen.Hints.DF
import Verif.Gen.Hints.Density
import Verif.Gen.Hints.Energy
import Verif.Gen.Hints.Eom
import Verif.Gen.Hints.Exp
import Verif.Gen.Hints.ExpR
import Verif.Gen.Hints.Ext
import Verif.Gen.Hints.Grad
import Verif.Gen.Hints.Lams
import Verif.Gen.Hints.Reduce
import Verif.Gen.Hints.Split
import Verif.Gen.Hints.SplitB
import Verif.Gen.RCC2
import Verif.Gen.RCC2Eom
import Verif.Gen.RCCD
import Verif.Gen.RCCDEom
import Verif.Gen.RCCSD
import Verif.Gen.RCCSDEom
import Verif.Gen.RCCSD_SD_1_1
import Verif.Gen.RCCSD_SD_1_2
import Verif.Gen.RCCSD_S_1_1
import Verif.Gen.RDCD
import Verif.Gen.RDCSD
import Verif.Gen.RDFCC2
import Verif.Gen.RDFCC2Eom
import Verif.Gen.RDFCCD
import Verif.Gen.RDFCCDEom
import Verif.Gen.RDFCCSD
import Verif.Gen.RDFCCSDEom
import Verif.Gen.RDFDCD
import Verif.Gen.RDFDCSD
import Verif.Gen.RDFLCCD
import Verif.Gen.RDFLCCSD
import Verif.Gen.RDFQCISD
import Verif.Gen.RLCCD
import Verif.Gen.RLCCSD
import Verif.Gen.RMP2
import Verif.Gen.RMP2Eom
import Verif.Gen.RQCISD
import Verif.Gen.RecCC
import Verif.Gen.UCC2
import Verif.Gen.UCC2Eom
import Verif.Gen.UCCD
import Verif.Gen.UCCDEom
import Verif.Gen.UCCSD
import Verif.Gen.UCCSDEom
import Verif.Gen.UCCSD_SD_1_1
import Verif.Gen.UCCSD_SD_1_2
import Verif.Gen.UCCSD_S_1_1
import Verif.Gen.UDCD
import Verif.Gen.UDCSD
import Verif.Gen.UDFCC2Eom
import Verif.Gen.UDFCCDEom
import Verif.Gen.UDFCCSDEom
import Verif.Gen.ULCCD
import Verif.Gen.ULCCSD
import Verif.Gen.UMP2
import Verif.Gen.UMP2Eom
import Verif.Gen.UMP3
import Verif.Gen.UQCISD
import Verif.Gen.UecCC
import Verif.Lemmas.Amps
import Verif.Lemmas.Ansatz
import Verif.Lemmas.AntisymArray
import Verif.Lemmas.Array
import Verif.Lemmas.AxSum
import Verif.Lemmas.Codec
import Verif.Lemmas.CoeffArray
import Verif.Lemmas.Convert
import Verif.Lemmas.Davidson
import Verif.Lemmas.Decompress
import Verif.Lemmas.EinRename
import Verif.Lemmas.EinSumSpec
import Verif.Lemmas.Einsum
import Verif.Lemmas.EinsumParse
import Verif.Lemmas.EomVectors
import Verif.Lemmas.ExpCoeff
import Verif.Lemmas.GenAmps
import Verif.Lemmas.GenEinsum
import Verif.Lemmas.GenInts
import Verif.Lemmas.GenSpace
import Verif.Lemmas.Groups
import Verif.Lemmas.Lists
import Verif.Lemmas.Misc
import Verif.Lemmas.Packed
import Verif.Lemmas.PermSum
import Verif.Lemmas.Perms
import Verif.Lemmas.PutIx
import Verif.Lemmas.Py
import Verif.Lemmas.Rotate
import Verif.Lemmas.Rotated
import Verif.Lemmas.Space
import Verif.Lemmas.SpinSum
import Verif.Lemmas.Spread
import Verif.Lemmas.Sym
import Verif.Lemmas.Symmetrise
import Verif.Lemmas.TransposeInv
import Verif.Lemmas.Tril
import Verif.Lemmas.Ttgt
import Verif.Lemmas.USpin
import Verif.Lemmas.Vectors
import Verif.Model.Amps
import Verif.Model.Ansatz
import Verif.Model.Arguments
import Verif.Model.Array
import Verif.Model.Backends
import Verif.Model.Brueckner
import Verif.Model.BruecknerKernel
import Verif.Model.BruecknerRotation
import Verif.Model.Calc
import Verif.Model.Compress
import Verif.Model.Context
import Verif.Model.Convert
import Verif.Model.Damping
import Verif.Model.Davidson
import Verif.Model.Dirsum
import Verif.Model.Dump
import Verif.Model.Einsum
import Verif.Model.EinsumParse
import Verif.Model.Ellipsis
import Verif.Model.EomKernel
import Verif.Model.EomOps
import Verif.Model.EomVectors
import Verif.Model.External
import Verif.Model.ExternalUpdate
import Verif.Model.Fci
import Verif.Model.FciAmps
import Verif.Model.FciConvert
import Verif.Model.GenCode
import Verif.Model.GenInts
import Verif.Model.Guesses
import Verif.Model.Ham
import Verif.Model.InitAmps
import Verif.Model.Kernel
import Verif.Model.Logging
import Verif.Model.MeanField
import Verif.Model.Misc
import Verif.Model.Namespace
import Verif.Model.Pack
import Verif.Model.Package
import Verif.Model.Perms
import Verif.Model.PickRoots
import Verif.Model.Polaritonic
import Verif.Model.Precision
import Verif.Model.Py
import Verif.Model.Rdm
import Verif.Model.Space
import Verif.Model.Spin
import Verif.Model.Strings
import Verif.Model.Subscripts
import Verif.Model.Symmetrise
import Verif.Model.T1Norm
import Verif.Model.Tailor
import Verif.Model.Tblis
import Verif.Model.Tril
import Verif.Model.Utilities
import Verif.Model.Vectors
import Verif.Spec.Active
import Verif.Spec.Antisym
import Verif.Spec.BosonHam
import Verif.Spec.DensityG
import Verif.Spec.Einsum
import Verif.Spec.EomG
import Verif.Spec.ExpCoeff
import Verif.Spec.External
import Verif.Spec.GenArgs
import Verif.Spec.GenArgsB
import Verif.Spec.GenArgsG
import Verif.Spec.GenArgsS
import Verif.Spec.Perm
import Verif.Spec.Rotated
import Verif.Spec.Singlet
import Verif.Spec.Symmetry
import Verif.Spec.Vanish
import Verif.Tensor.Basics
import Verif.Tensor.Canon
import Verif.Tensor.Check
import Verif.Tensor.Claim
import Verif.Tensor.Contract
import Verif.Tensor.Covariant
import Verif.Tensor.Density
import Verif.Tensor.DerivSound
import Verif.Tensor.Engine
import Verif.Tensor.Eom
import Verif.Tensor.External
import Verif.Tensor.ExternalSum
import Verif.Tensor.Gradient
import Verif.Tensor.Identity
import Verif.Tensor.IdentitySound
import Verif.Tensor.Poly
import Verif.Tensor.Reduce
import Verif.Tensor.Run
import Verif.Tensor.Setup
import Verif.Tensor.SetupB
import Verif.Tensor.SetupDF
import Verif.Tensor.SetupE
import Verif.Tensor.SetupG
import Verif.Tensor.SetupRes
import Verif.Tensor.SetupS
import Verif.Tensor.Split
import Verif.Tensor.SplitsInto
import Verif.Tensor.Value
import Verif.Thms.C01
import Verif.Thms.C02
import Verif.Thms.C03
import Verif.Thms.C04
import Verif.Thms.C05
import Verif.Thms.C06
import Verif.Thms.C07
import Verif.Thms.C08
import Verif.Thms.C09
import Verif.Thms.C10
import Verif.Thms.C100
import Verif.Thms.C11
import Verif.Thms.C12
import Verif.Thms.C13
import Verif.Thms.C14
import Verif.Thms.C15
import Verif.Thms.C16
import Verif.Thms.C16b
import Verif.Thms.C17
import Verif.Thms.C18
import Verif.Thms.C19
import Verif.Thms.C20
import Verif.Thms.C21
import Verif.Thms.C22
import Verif.Thms.C23
import Verif.Thms.C24
import Verif.Thms.C25
import Verif.Thms.C26
import Verif.Thms.C27
import Verif.Thms.C28
import Verif.Thms.C29
import Verif.Thms.C30
import Verif.Thms.C31
import Verif.Thms.C32
import Verif.Thms.C33
import Verif.Thms.C34
import Verif.Thms.C35
import Verif.Thms.C36
import Verif.Thms.C37
import Verif.Thms.C38
import Verif.Thms.C39
import Verif.Thms.C40
import Verif.Thms.C41
import Verif.Thms.C42
import Verif.Thms.C42b
import Verif.Thms.C43
import Verif.Thms.C44
import Verif.Thms.C45
import Verif.Thms.C46
import Verif.Thms.C47
import Verif.Thms.C48
import Verif.Thms.C49
import Verif.Thms.C50
import Verif.Thms.C51
import Verif.Thms.C52
import Verif.Thms.C53
import Verif.Thms.C54
import Verif.Thms.C55
import Verif.Thms.C56
import Verif.Thms.C57
import Verif.Thms.C58
import Verif.Thms.C59
import Verif.Thms.C60
import Verif.Thms.C61
import Verif.Thms.C62
import Verif.Thms.C63
import Verif.Thms.C64
import Verif.Thms.C65
import Verif.Thms.C66
import Verif.Thms.C67
import Verif.Thms.C68
import Verif.Thms.C69
import Verif.Thms.C70
import Verif.Thms.C71
import Verif.Thms.C72
import Verif.Thms.C73
import Verif.Thms.C74
import Verif.Thms.C75
import Verif.Thms.C76
import Verif.Thms.C76N
import Verif.Thms.C77
import Verif.Thms.C77E
import Verif.Thms.C78
import Verif.Thms.C78J
import Verif.Thms.C78N
import Verif.Thms.C79
import Verif.Thms.C80
import Verif.Thms.C80B
import Verif.Thms.C81
import Verif.Thms.C82
import Verif.Thms.C83
import Verif.Thms.C84
import Verif.Thms.C84Checks
import Verif.Thms.C85
import Verif.Thms.C86
import Verif.Thms.C86Checks
import Verif.Thms.C86Sums
import Verif.Thms.C87
import Verif.Thms.C87U
import Verif.Thms.C88
import Verif.Thms.C89
import Verif.Thms.C90
import Verif.Thms.C91
import Verif.Thms.C91E
import Verif.Thms.C92
import Verif.Thms.C93
import Verif.Thms.C94
import Verif.Thms.C95
import Verif.Thms.C96
import Verif.Thms.C97
import Verif.Thms.C98
import Verif.Thms.C99
