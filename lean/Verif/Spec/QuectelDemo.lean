import Verif.Model.QuectelDemo
import Verif.Spec.Poller
/-!
# Specification: the program quecteldemo.py
-/
namespace Spec.QuectelDemo
open Py Nmea

/-- The program at its start. -/
def start {σ} (s : σ) : Demo σ := { threads := { stream := s }, rest := demoMain }

/-- What the device is to get, one write each, in this order. -/
def sentences : List Bytes :=
  [pb!"$PQTMVERNO*58\r\n", pb!"$PQTMRESTOREPAR*13\r\n", pb!"$PQTMCFGRCVRMODE,R*32\r\n",
   pb!"$PQTMCFGFIXRATE,W,1000*59\r\n", pb!"$PQTMCFGFIXRATE,R*71\r\n", pb!"$PQTMCFGFIXRATE,R*71\r\n",
   pb!"$PQTMCFGFIXRATE,R*71\r\n", pb!"$PQTMCFGFIXRATE,R*71\r\n", pb!"$PQTMCFGFIXRATE,R*71\r\n",
   pb!"$PQTMCFGUART,R,1*2B\r\n", pb!"$PQTMCFGPROT,R,1,1*3D\r\n", pb!"$PQTMCFGUART,R,2*28\r\n",
   pb!"$PQTMCFGPROT,R,1,2*3E\r\n", pb!"$PQTMCFGUART,R,3*29\r\n", pb!"$PQTMCFGPROT,R,1,3*3F\r\n",
   pb!"$PQTMCFGPROT,R,1,3*3F\r\n", pb!"$PQTMCFGPROT,R,1,3*3F\r\n", pb!"$PQTMCFGMSGRATE,W,GGA,0*0B\r\n",
   pb!"$PQTMCFGMSGRATE,W,GLL,0*0D\r\n", pb!"$PQTMCFGMSGRATE,W,GSA,0*1F\r\n", pb!"$PQTMCFGMSGRATE,W,GSV,0*08\r\n",
   pb!"$PQTMCFGMSGRATE,W,RMC,0*16\r\n", pb!"$PQTMCFGMSGRATE,W,VTG,0*0F\r\n",
   pb!"$PQTMCFGMSGRATE,W,PQTMDOP,1,1*15\r\n", pb!"$PQTMCFGMSGRATE,W,PQTMEPE,1,2*1D\r\n",
   pb!"$PQTMCFGMSGRATE,W,PQTMGEOFENCESTATUS,1,1*5C\r\n", pb!"$PQTMCFGMSGRATE,W,PQTMODO,1,1*0A\r\n",
   pb!"$PQTMCFGMSGRATE,W,PQTMPL,1,1*52\r\n", pb!"$PQTMCFGMSGRATE,W,PQTMPVT,1,1*1C\r\n",
   pb!"$PQTMCFGMSGRATE,W,PQTMSVINSTATUS,1,1*58\r\n", pb!"$PQTMCFGMSGRATE,W,PQTMTXT,1,1*16\r\n",
   pb!"$PQTMCFGMSGRATE,W,PQTMVEL,1,1*11\r\n", pb!"$PQTMCFGRCVRMODE,W,2*29\r\n",
   pb!"$PQTMCFGSVIN,W,1,60,3000,0.0,0.0,0.0*39\r\n", pb!"$PQTMSAVEPAR*5A\r\n", pb!"$PQTMSRR*4B\r\n",
   pb!"$PQTMCFGRCVRMODE,W,1*2A\r\n", pb!"$PQTMSAVEPAR*5A\r\n", pb!"$PQTMSRR*4B\r\n", pb!"$PQTMHOT*4B\r\n"]

/-- The messages that are printed: with `qtmonly`, those with `QTM` in their identity. -/
def wanted (qtmonly : Bool) (m : Msg) : Bool :=
  !qtmonly || (match m.identity with | .ok id => decide (py!"QTM" <:+: id) | .error _ => false)

/-- The outcomes of the reads made while the program runs from state `d` according to a schedule. -/
def readsMade {σ} (now : Nat → DateTime) (ops : StreamOps σ) (cfg : RCfg) (wr : Writes) (qtmonly : Bool) :
    Demo σ → List DemoAct → List ReadResult
  | _, [] => []
  | d, .io :: r =>
    match d.threads.io with
    | .read => (readMsg now ops cfg d.threads.stream).1 :: readsMade now ops cfg wr qtmonly (d.step now ops cfg wr qtmonly .io) r
    | _ => readsMade now ops cfg wr qtmonly (d.step now ops cfg wr qtmonly .io) r
  | d, a :: r => readsMade now ops cfg wr qtmonly (d.step now ops cfg wr qtmonly a) r

end Spec.QuectelDemo
