import Verif.Model.Factory
import Verif.Model.State
import Verif.Proofs.Basic
import Verif.Proofs.Object
import Verif.Props.C14
import Verif.Props.C13
import Verif.Props.C37
import Verif.Props.C37Names
import Verif.Props.C36
import Verif.Props.C31
import Verif.Props.C15
import Verif.Props.C16
import Verif.Props.C17
import Verif.Props.C46
import Verif.Props.Sessions
import Verif.Props.C10
import Verif.Props.C11
import Verif.Props.C18
import Verif.Props.C19
import Verif.Props.C20
import Verif.Spec.Search
import Verif.Proofs.Search
import Verif.Props.C21
import Verif.Props.C12
import Verif.Spec.Sizes
import Verif.Props.C48
import Verif.Proofs.FetchCongr
import Verif.Proofs.Codec
import Verif.Proofs.ReadBack
import Verif.Props.C49
import Verif.Props.C22
import Verif.Props.C23
import Verif.Props.C25
import Verif.Proofs.Sticky
import Verif.Props.ExMechs
import Verif.Proofs.StickyDisk
import Verif.Props.C14Life
import Verif.Props.C24
import Verif.Props.C43
import Verif.Props.C26
import Verif.Spec.Pins
import Verif.Proofs.Vault
import Verif.Proofs.VaultToken
import Verif.Proofs.VaultInit
import Verif.Proofs.VaultFrame
import Verif.Proofs.Sealing
import Verif.Proofs.VaultStep
import Verif.Proofs.PinBook
import Verif.Proofs.PinFlags
import Verif.Props.C05
import Verif.Props.C08
import Verif.Props.C27
import Verif.Props.C27b
import Verif.Props.C28
import Verif.Props.C29
import Verif.Props.C44
import Verif.Proofs.Kept
import Verif.Proofs.Cfg
import Verif.Props.C32
import Verif.Props.C33
import Verif.Props.C34
import Verif.Proofs.Labels
import Verif.Props.C35
import Verif.Model.Hmac
import Verif.Props.C50
import Verif.Model.Hotp
import Verif.Proofs.Otp
import Verif.Proofs.OneAttr
import Verif.Props.C38
import Verif.Model.Sp800
import Verif.Props.C39
import Verif.Model.NssConfig
import Verif.Props.C40
import Verif.Model.Fips
import Verif.Props.C41
import Verif.Props.C51
import Verif.Model.OpState
import Verif.Props.C42
import Verif.Model.Locks
import Verif.Props.C47
import Verif.Proofs.RegularTok
import Verif.Proofs.Sealed
import Verif.Proofs.NoKey
import Verif.Props.C30
import Verif.Model.Aes
import Verif.Model.AesMac
import Verif.Spec.Aes
import Verif.Proofs.AesBlocks
import Verif.Proofs.AesRuns
import Verif.Proofs.AesDec
import Verif.Props.C52
import Verif.Props.C53
import Verif.Props.C54
import Verif.Props.C55
import Verif.Props.C56
import Verif.Props.C57
import Verif.Props.C58
import Verif.Props.C59
import Verif.Model.TlsKdf
import Verif.Model.HashKdf
import Verif.Model.Pbkdf2
import Verif.Proofs.TlsPrf
import Verif.Props.C60
import Verif.Props.C61
import Verif.Props.C62
import Verif.Model.Hkdf
import Verif.Props.C63
import Verif.Props.C64
import Verif.Props.C65
import Verif.Model.NssAttrs
import Verif.Model.NssKeys
import Verif.Model.NssDb
import Verif.Spec.Nss
import Verif.Proofs.NssKeys
import Verif.Props.C66
import Verif.Props.C67
import Verif.Model.NssTok
import Verif.Proofs.NssIds
import Verif.Proofs.NssRows
import Verif.Proofs.NssSeal
import Verif.Props.C68
import Verif.Props.C69
import Verif.Props.C70
import Verif.Props.C71
import Verif.Props.C73
import Verif.Props.C74
import Verif.Props.C75
import Verif.Props.C76
import Verif.Props.C77
import Verif.Props.C78
import Verif.Props.C79
import Verif.Props.C80
import Verif.Props.C81
import Verif.Props.C82
import Verif.Model.MlImport
import Verif.Props.C83
import Verif.Model.MacCalls
import Verif.Spec.Feeds
import Verif.Proofs.Follow
import Verif.Props.C84
import Verif.Proofs.Alone
import Verif.Props.C85
import Verif.Model.AesCalls
import Verif.Props.C86
import Verif.Model.AesSign
import Verif.Proofs.Exchange
import Verif.Props.C87
import Verif.Model.EdCalls
import Verif.Props.C88
import Verif.Model.EcdsaCalls
import Verif.Proofs.SigTalk
import Verif.Props.C89
import Verif.Model.RsaCalls
import Verif.Props.C90
import Verif.Model.PqCalls
import Verif.Props.C91
import Verif.Props.C92
import Verif.Props.C93
