import Verif.CA.CertDBProps
import Verif.CA.TxIdsProps
import Verif.CA.KemListProps
import Verif.CA.StflProps
import Verif.CA.ChallengeProps
import Verif.CA.RevListProps
import Verif.CA.CertConfProps
import Verif.CA.IssueProps
import Verif.Check.HelpersProps
import Verif.Check.HeaderProps
import Verif.PQ.Fips203Props
import Verif.PQ.Fips204Props
import Verif.PQ.SigKeysProps
import Verif.PQ.Fips205Props
import Verif.PQ.SlhKeysProps
import Verif.PQ.FrodoProps
import Verif.PQ.KemMechProps
import Verif.PQ.KemKeysProps
import Verif.PQ.HybridProps
import Verif.PQ.HybridLoadProps
import Verif.PQ.CompSigProps
import Verif.PQ.KeyStoreProps
import Verif.PQ.StatefulSecProps
import Verif.Check.TemplateProps
import Verif.Check.ChainProps
import Verif.CA.RevokeProps
import Verif.CA.DispatchProps
import Verif.CA.NestedProps
import Verif.CA.SerialProps
import Verif.Hybrid.ChameleonIssueProps
import Verif.Hybrid.CatalystProps
import Verif.Hybrid.CatalystIssueProps
import Verif.Hybrid.VerifyProps
import Verif.Hybrid.CrlProps
import Verif.Hybrid.MigrationProps
import Verif.Hybrid.RelatedProps
import Verif.Hybrid.DiscoveryProps
import Verif.Hybrid.SunProps
import Verif.Hybrid.SunVerifyProps
import Verif.Hybrid.SunIssueProps
import Verif.Prot.MacRefuted
import Verif.Prot.KemRefuted
import Verif.Prot.DhProps
import Verif.Prot.SigMatchProps
import Verif.Prot.SigRefuted
import Verif.Env.EnvRefuted
import Verif.Env.MqvProps
import Verif.Env.SignedProps
import Verif.Env.KgaProps
import Verif.Ra.PopRefuted
import Verif.Ra.HeaderProps
import Verif.Ra.UpdateProps
import Verif.Ra.RootCaProps
import Verif.Ra.Utf8PairsProps
import Verif.Ra.ControlsProps
import Verif.Ra.ExtnsCert
import Verif.Ra.GeneralClientIff
import Verif.Ra.ConfirmProps
import Verif.Ra.GenInfoProps
import Verif.Ra.SenderProps
import Verif.Ra.BuildProps
import Verif.Ra.BuildNestedProps
import Verif.Ra.StatusProps
import Verif.Ra.Asn1PathProps
import Verif.Ra.CaBodyProps
import Verif.Ra.SigAlgProps
import Verif.Hybrid.OidProps
import Verif.Env.ChallengeRefuted
import Verif.Env.KgaBuildProps
import Verif.Ra.Revoked
import Verif.Ra.RevokedProps
import Verif.Ra.Migration
import Verif.Ra.MigrationProps
import Verif.Ra.RequestMoreProps
import Verif.Ra.Answer
import Verif.Ra.AnswerProps
import Verif.CA.Endpoints
import Verif.CA.EndpointsProps
import Verif.Ra.Handler
import Verif.Ra.HandlerProps
import Verif.Ra.ProtCheck
import Verif.Ra.ProtCheckProps
import Verif.CA.StflReg
import Verif.CA.StflRegProps
import Verif.Ra.Granted
import Verif.Ra.GrantedProps
import Verif.Ra.ReqTmpl
import Verif.Ra.ReqTmplProps
import Verif.Ra.ReqBuild
import Verif.Ra.ReqBuildProps
import Verif.Ra.ReqEditProps
import Verif.Ra.RevReq
import Verif.Ra.RevReqProps
import Verif.Ra.CsrBuild
import Verif.Ra.CsrBuildProps
import Verif.Ra.RespBuildProps
import Verif.Ra.RespMsgProps
import Verif.Ra.SignOidProps
import Verif.Ra.CrlPointProps
import Verif.Ra.PrivPopProps
import Verif.Ra.CertGenProps
import Verif.PQ.TradStoreProps
import Verif.Ra.NameBuildProps
import Verif.PQ.HybridGenProps
import Verif.Ra.OpensslRunProps
import Verif.PQ.PemKeyProps
import Verif.Hybrid.SunReqProps
import Verif.PQ.KeyExportProps
import Verif.CA.SetupProps
import Verif.Ra.AnnounceProps
import Verif.Prot.ProtectMoreProps
import Verif.Env.EnvMoreProps
import Verif.Ra.GeneralMoreProps
import Verif.Prot.OrigMsgProps
import Verif.Check.PubKeyProps
import Verif.Check.ConfIdsProps
import Verif.Ra.GenmBuildProps
import Verif.Prot.KemClientProps
import Verif.Check.PubKeyMoreProps
import Verif.CA.Ocsp
import Verif.CA.OcspProps
import Verif.Ra.KemCt
import Verif.Ra.KemCtProps
import Verif.CA.SetupMoreProps
import Verif.PQ.KeyExportMoreProps
import Verif.Hybrid.SunReqMoreProps
import Verif.Ra.ConfirmMoreProps
import Verif.Ra.CsrBuildMoreProps
