import Verif.Py.Base
/- Generated by tools/gen_tables.py from the source text of /repo/src/pynmeagps. -/
namespace Nmea
open Py

/-- Keys of `NMEA_TALKERS` (/repo/src/pynmeagps/nmeatypes_core.py:118-230). -/
def NMEA_TALKERS : List Str := [
  py!"AB",
  py!"AD",
  py!"AG",
  py!"AI",
  py!"AP",
  py!"AN",
  py!"AR",
  py!"AS",
  py!"AT",
  py!"AX",
  py!"BI",
  py!"BN",
  py!"CA",
  py!"CD",
  py!"CR",
  py!"CS",
  py!"CT",
  py!"CV",
  py!"CX",
  py!"DE",
  py!"DF",
  py!"DP",
  py!"DU",
  py!"EC",
  py!"EI",
  py!"EP",
  py!"ER",
  py!"FD",
  py!"FE",
  py!"FR",
  py!"FS",
  py!"GA",
  py!"GB",
  py!"BD",
  py!"GI",
  py!"GL",
  py!"GN",
  py!"GP",
  py!"GQ",
  py!"P",
  py!"HC",
  py!"HE",
  py!"HF",
  py!"HN",
  py!"HD",
  py!"HS",
  py!"IC",
  py!"II",
  py!"IN",
  py!"LC",
  py!"MP",
  py!"ND",
  py!"NL",
  py!"RA",
  py!"RC",
  py!"SA",
  py!"SC",
  py!"SD",
  py!"SG",
  py!"SI",
  py!"SN",
  py!"SS",
  py!"TC",
  py!"TI",
  py!"UP",
  py!"U0",
  py!"U1",
  py!"U2",
  py!"U3",
  py!"U4",
  py!"U5",
  py!"U6",
  py!"U7",
  py!"U8",
  py!"U9",
  py!"VD",
  py!"VM",
  py!"VR",
  py!"VW",
  py!"WD",
  py!"WI",
  py!"WL",
  py!"YX",
  py!"ZA",
  py!"ZC",
  py!"ZQ",
  py!"ZV"]

/-- `NMEA_MSGIDS` with descriptions (/repo/src/pynmeagps/nmeatypes_core.py:243-405). -/
def NMEA_MSGIDS : List (Str × Str) := [
  (py!"AAM", py!"Waypoint arrival alarm"),
  (py!"ABK", py!"AIS addressed and binary broadcast acknowledgement"),
  (py!"ABM", py!"AIS addressed binary and safety related message"),
  (py!"ACA", py!"AIS channel assignment message"),
  (py!"ACK", py!"Acknowledge alarm"),
  (py!"ACN", py!"Alert Command"),
  (py!"ACS", py!"AIS channel management information source"),
  (py!"AIR", py!"AIS interrogation request"),
  (py!"AKD", py!"Acknowledge detail alarm condition7"),
  (py!"ALA", py!"Report detailed alarm condition"),
  (py!"ALC", py!"Cyclic alert list"),
  (py!"ALF", py!"Alert sentence"),
  (py!"ALR", py!"Set alarm state"),
  (py!"APA", py!"Auto Pilot A sentence"),
  (py!"APB", py!"Heading/track controller (autopilot) sentence"),
  (py!"ARC", py!"Alert command refused"),
  (py!"BBM", py!"AIS broadcast binary message"),
  (py!"BEC", py!"Bearing and distance to waypoint - Dead reckoning"),
  (py!"BOD", py!"Bearing origin to destination"),
  (py!"BWC", py!"Bearing and distance to waypoint - Great circle"),
  (py!"BWR", py!"Bearing and distance to waypoint - Rhumb line"),
  (py!"BWW", py!"Bearing waypoint to waypoint"),
  (py!"CUR", py!"Water current layer - Multi-layer water current data"),
  (py!"DBT", py!"Depth below transducer"),
  (py!"DDC", py!"Display dimming control"),
  (py!"DOR", py!"Door status detection"),
  (py!"DPT", py!"Depth"),
  (py!"DSC", py!"Digital selective calling information"),
  (py!"DSE", py!"Expanded digital selective calling"),
  (py!"DTM", py!"Datum reference"),
  (py!"EPV", py!"Command or report equipment property value"),
  (py!"ETL", py!"Engine telegraph operation status"),
  (py!"EVE", py!"General event message"),
  (py!"FIR", py!"Fire detection"),
  (py!"FMI", py!"Feyman IMU roll, pitch, yaw"),
  (py!"FSI", py!"Frequency set information"),
  (py!"GAQ", py!"Poll Standard Message - Talker ID GA (Galileo)"),
  (py!"GBQ", py!"Poll Standard Message - Talker ID GB (BeiDou)"),
  (py!"GBS", py!"GNSS satellite fault detection"),
  (py!"GEN", py!"Generic binary information"),
  (py!"GFA", py!"GNSS fix accuracy and integrity"),
  (py!"GGA", py!"Global positioning system fix data"),
  (py!"GLL", py!"Geographic position - Latitude/longitude"),
  (py!"GLQ", py!"Poll Standard Message - Talker ID GL (GLONASS)"),
  (py!"GMP", py!"GNSS Map Projection Fix Data"),
  (py!"GNQ", py!"Poll Standard Message - Talker ID GN (Any GNSS)"),
  (py!"GNS", py!"GNSS Fix Data"),
  (py!"GPQ", py!"Poll Standard Message - Talker ID GP (GPS, SBAS)"),
  (py!"GQQ", py!"Poll Standard Message - Talker ID GQ (QZSS)"),
  (py!"GRS", py!"GNSS range residuals"),
  (py!"GSA", py!"GNSS DOP and active satellites"),
  (py!"GST", py!"GNSS pseudorange noise statistics"),
  (py!"GSV", py!"GNSS satellites in view"),
  (py!"HBT", py!"Heartbeat supervision sentence"),
  (py!"HCR", py!"Heading correction report"),
  (py!"HDG", py!"Heading, deviation and variation"),
  (py!"HDM", py!"Heading, Magnetic"),
  (py!"HDT", py!"Heading true"),
  (py!"HMR", py!"Heading monitor receive"),
  (py!"HMS", py!"Heading monitor set"),
  (py!"HRM", py!"heel angle, roll period and roll amplitude measurement device"),
  (py!"HSC", py!"Heading steering command"),
  (py!"HSS", py!"Hull stress surveillance systems"),
  (py!"HTC", py!"Heading/track control command"),
  (py!"HTD", py!"Heading /track control"),
  (py!"LLQ", py!"Leica local position and quality"),
  (py!"LR1", py!"AIS long-range reply sentence 1"),
  (py!"LR2", py!"AIS long-range reply sentence 2"),
  (py!"LR3", py!"AIS long-range reply sentence 3"),
  (py!"LRF", py!"AIS long-range function"),
  (py!"LRI", py!"AIS long-range interrogation"),
  (py!"MOB", py!"Man over board notification"),
  (py!"MSK", py!"MSK receiver interface"),
  (py!"MSS", py!"MSK receiver signal status"),
  (py!"MTW", py!"Water temperature"),
  (py!"MWD", py!"Wind direction and speed"),
  (py!"MWV", py!"Wind speed and angle"),
  (py!"NAK", py!"Negative acknowledgement"),
  (py!"NRM", py!"NAVTEX receiver mask"),
  (py!"NRX", py!"NAVTEX received message"),
  (py!"NSR", py!"Navigation status report"),
  (py!"OSD", py!"Own ship data"),
  (py!"POS", py!"Device position and ship dimensions report or configuration"),
  (py!"PRC", py!"Propulsion remote control status"),
  (py!"RLM", py!"Return link message"),
  (py!"RMA", py!"Recommended minimum specific LORAN-C data"),
  (py!"RMB", py!"Recommended minimum navigation information"),
  (py!"RMC", py!"Recommended minimum specific GNSS data"),
  (py!"ROR", py!"Rudder order status"),
  (py!"ROT", py!"Rate of turn"),
  (py!"RRT", py!"Report route transfer"),
  (py!"RPM", py!"Revolutions"),
  (py!"RSA", py!"Rudder sensor angle"),
  (py!"RSD", py!"Radar system data"),
  (py!"RTE", py!"Routes"),
  (py!"SFI", py!"Scanning frequency information"),
  (py!"SM1", py!"SafetyNET Message, All Ships/NavArea"),
  (py!"SM2", py!"SafetyNET Message, Coastal Warning Area"),
  (py!"SM3", py!"SafetyNET Message, Circular Area address"),
  (py!"SM4", py!"SafetyNET Message, Rectangular Area Address"),
  (py!"SMB", py!"IMO SafetyNET Message Body"),
  (py!"SPW", py!"Security password sentence"),
  (py!"SSD", py!"AIS ship static data"),
  (py!"STN", py!"Multiple data ID"),
  (py!"THS", py!"True heading and status"),
  (py!"TLB", py!"Target label"),
  (py!"TLL", py!"Target latitude and longitude"),
  (py!"TRA", py!"Heading, Pitch & Roll Information"),
  (py!"TRC", py!"Thruster control data"),
  (py!"TRL", py!"AIS transmitter-non-functioning log"),
  (py!"TRD", py!"Thruster response data"),
  (py!"TRF", py!"Transit Fix Data"),
  (py!"TTD", py!"Tracked target data"),
  (py!"TTM", py!"Tracked target message"),
  (py!"TUT", py!"Transmission of multi-language text"),
  (py!"TXT", py!"Text transmission"),
  (py!"UID", py!"User identification code transmission"),
  (py!"VBW", py!"Dual ground/water speed"),
  (py!"VDM", py!"AIS VHF data-link message"),
  (py!"VDO", py!"AIS VHF data-link own-vessel report"),
  (py!"VDR", py!"Set and drift"),
  (py!"VER", py!"Version"),
  (py!"VHW", py!"Water speed and heading"),
  (py!"VLW", py!"Dual ground/water distance"),
  (py!"VPW", py!"Speed measured parallel to wind"),
  (py!"VSD", py!"AIS voyage static data"),
  (py!"VTG", py!"Course over ground and ground speed"),
  (py!"WAT", py!"Water level detection"),
  (py!"WCV", py!"Waypoint closure velocity"),
  (py!"WNC", py!"Distance waypoint to waypoint"),
  (py!"WPL", py!"Waypoint location"),
  (py!"XDR", py!"Transducer measurements"),
  (py!"XTE", py!"Cross-track error, measured"),
  (py!"XTR", py!"Cross-track error, dead reckoning"),
  (py!"ZDA", py!"Time and date"),
  (py!"ZDL", py!"Time and distance to variable point"),
  (py!"ZFO", py!"UTC and time from origin waypoint"),
  (py!"ZTG", py!"UTC and time to destination waypoint"),
  (py!"GGAH", py!"Global Positioning System Fix Data (Secondary Antenna)"),
  (py!"GLLH", py!"Geographic Position (Secondary Antenna)"),
  (py!"GNSH", py!"GNSS Fix Data (Secondary Antenna)"),
  (py!"GRSH", py!"GNSS Range Residuals (Secondary Antenna)"),
  (py!"GSAH", py!"GNSS DOP and Active Satellites (Secondary Antenna)"),
  (py!"GSTH", py!"GNSS Pseudorange Error Statistics (Secondary Antenna)"),
  (py!"GSVH", py!"GNSS Satellites in View (Secondary Antenna)"),
  (py!"RMCH", py!"Recommended Minimum Specific GNSS Data (Secondary Antenna)"),
  (py!"VTGH", py!"Course over Ground and Ground Speed (Secondary Antenna)"),
  (py!"THS2", py!"True Heading and Status"),
  (py!"HPR", py!"Attitude Parameters"),
  (py!"HPR2", py!"Attitude Parameters"),
  (py!"TRA2", py!"Heading, Pitch & Roll Information"),
  (py!"ROT2", py!"Rate of Turn"),
  (py!"HPD", py!"Positioning and Heading Information"),
  (py!"FOO", py!"Dummy message")]

/-- `NMEA_MSGIDS_PROP` with descriptions (/repo/src/pynmeagps/nmeatypes_core.py:414-745). -/
def NMEA_MSGIDS_PROP : List (Str × Str) := [
  (py!"GRMB", py!"DGPS Beacon Information"),
  (py!"GRMC", py!"Set Sensor Configuration information"),
  (py!"GRMC1", py!"Set Additional Sensor Configuration Information"),
  (py!"GRME", py!"Estimated Error Information"),
  (py!"GRMF", py!"GPS Fix Data sentence"),
  (py!"GRMH", py!"Aviation Height and VNAV data"),
  (py!"GRMI", py!"Set Sensor Initialisation Information"),
  (py!"GRMM", py!"MapDatum"),
  (py!"GRMO", py!"Set Output Sentence Enable"),
  (py!"GRMT", py!"Sensor Status Information"),
  (py!"GRMV", py!"3D Velocity Information"),
  (py!"GRMW", py!"Set Additional Waypoint Information"),
  (py!"GRMZ", py!"Altitude"),
  (py!"KLDS", py!"Position, Speed, Course"),
  (py!"KLSH", py!"FleetSync GNSS sentence"),
  (py!"KNDS", py!"Position, Speed, Course"),
  (py!"KNSH", py!"Position"),
  (py!"KWDWPL", py!"Waypoint Location"),
  (py!"MGNWPL", py!"Waypoint Location"),
  (py!"AIR001", py!"Ack"),
  (py!"AIR002", py!"GNSS Subsys Power On"),
  (py!"AIR003", py!"GNSS Subsys Power Off"),
  (py!"AIR004", py!"GNSS Subsys Hot Start"),
  (py!"AIR005", py!"GNSS Subsys Warm Start"),
  (py!"AIR006", py!"GNSS Subsys Cold Start"),
  (py!"AIR007", py!"GNSS Subsys Full Cold Start"),
  (py!"AIR010", py!"Request Aiding"),
  (py!"AIR050", py!"Common Set Fix Rate"),
  (py!"AIR051", py!"Common Get Fix Rate"),
  (py!"AIR058", py!"Common Set Min Snr"),
  (py!"AIR059", py!"Common Get Min Snr"),
  (py!"AIR062", py!"Common Set NMEA Output Rate"),
  (py!"AIR063", py!"Common Get NMEA Output Rate"),
  (py!"AIR066", py!"Common Set GNSS Search Mode"),
  (py!"AIR067", py!"Common Get GNSS Search Mode"),
  (py!"AIR070", py!"Common Set Static Threshold"),
  (py!"AIR071", py!"Common Get Static Threshold"),
  (py!"AIR072", py!"Common Set Elev Mask"),
  (py!"AIR073", py!"Common Get Elev Mask"),
  (py!"AIR074", py!"Common Set AIC Enable"),
  (py!"AIR075", py!"Common Get AIC Status"),
  (py!"AIR080", py!"Common Set Navigation Mode"),
  (py!"AIR081", py!"Common Get Navigation Mode"),
  (py!"AIR086", py!"Common Set Debuglog Output"),
  (py!"AIR087", py!"Common Get Debuglog Output"),
  (py!"AIR100", py!"Common Set Nmea Output Mode"),
  (py!"AIR101", py!"Common Get Nmea Output Mode"),
  (py!"AIR104", py!"Common Set Dual Band"),
  (py!"AIR105", py!"Common Get Dual Band"),
  (py!"AIR382", py!"Test Lock System Sleep"),
  (py!"AIR391", py!"Test Jamming Detect"),
  (py!"AIR400", py!"DGPS Set Mode"),
  (py!"AIR401", py!"DGPS Get Mode"),
  (py!"AIR410", py!"SBAS Enable"),
  (py!"AIR411", py!"SBAS Get Status"),
  (py!"AIR420", py!"SLAS Enable"),
  (py!"AIR421", py!"SLAS Get Status"),
  (py!"AIR432", py!"RTCM Set Output Mode"),
  (py!"AIR433", py!"RTCM Get Output Mode"),
  (py!"AIR434", py!"RTCM Set Output Ant Pnt"),
  (py!"AIR435", py!"RTCM Get Output Ant Pnt"),
  (py!"AIR436", py!"RTCM Set Output Ephemeris"),
  (py!"AIR437", py!"RTCM Get Output Ephemeris"),
  (py!"AIR490", py!"Set EASYTM status"),
  (py!"AIR491", py!"Get EASY status"),
  (py!"AIR511", py!"NVRAM Save Navigation Data"),
  (py!"AIR512", py!"NVRAM Clear Navigation Data"),
  (py!"AIR513", py!"NVRAM Save Setting"),
  (py!"AIR6010", py!"DR Set Custom Message Output"),
  (py!"AIR6011", py!"DR Get Custom Message Output"),
  (py!"AIR650", py!"Low Power Entry Rtc Mode"),
  (py!"AIR752", py!"PPS Set Config Cmd"),
  (py!"AIR864", py!"IO Set Baudrate"),
  (py!"AIR865", py!"IO Get Baudrate"),
  (py!"AIR866", py!"IO Set Flow Control"),
  (py!"AIR867", py!"IO Get Flow Control"),
  (py!"AIRSPF", py!"Jamming status L1"),
  (py!"AIRSPF5", py!"Jamming status L5"),
  (py!"QTMANTENNASTATUS", py!"Report Antenna Status"),
  (py!"QTMBKP", py!"Set Backup Mode"),
  (py!"QTMCFGAIC", py!"Sets/Gets AIC Function"),
  (py!"QTMCFGANTDELTA", py!"Sets/Gets Delta Between Ref Point and Antenna"),
  (py!"QTMCFGANTINF", py!"Sets/Gets Antenna Information"),
  (py!"QTMCFGBLD", py!"Sets/Gets Baseline Between Two Antennas"),
  (py!"QTMCFGCNST", py!"Sets/Gets Constellation Configuration"),
  (py!"QTMCFGDR", py!"Sets/Gets DR State"),
  (py!"QTMCFGDRHOT", py!"Sets/Gets DR Hot Start Feature"),
  (py!"QTMCFGDRRTD", py!"Sets/Gets DR Running TIme and Distance"),
  (py!"QTMCFGEINSMSG", py!"Sets/Gets INS, IMU, GPS Status"),
  (py!"QTMCFGELETHD", py!"Sets/Gets Elevation Threshold for Position Engine"),
  (py!"QTMCFGFIXRATE", py!"Sets/Gets Fix Interval"),
  (py!"QTMCFGGEOFENCE", py!"Sets/Gets Geofence Feature"),
  (py!"QTMCFGGEOSEP", py!"Sets/Gets Geoidal Separation"),
  (py!"QTMCFGIMUINT", py!"Sets/Gets Motion Trigger Interruption"),
  (py!"QTMCFGIMUTC", py!"Sets/Gets IMU Temperature Compensation"),
  (py!"QTMCFGLA", py!"Sets/Gets Lever Arm"),
  (py!"QTMCFGLAM", py!"Sets/Gets Lever Arm Mode"),
  (py!"QTMCFGMSGRATE", py!"Sets/Gets Message Output Rate"),
  (py!"QTMCFGNAVMODE", py!"Sets/Gets Navigation Mode"),
  (py!"QTMCFGNMEADP", py!"Sets/Gets NMEA Precision"),
  (py!"QTMCFGNMEATID", py!"Sets/Gets NMEA Talker ID"),
  (py!"QTMCFGODO", py!"Sets/Gets Odometer Feature"),
  (py!"QTMCFGPPS", py!"Sets/Gets PPS (Pulse Per Second) Feature"),
  (py!"QTMCFGPROT", py!"Sets/Gets I/O Protocol for Specified Port"),
  (py!"QTMCFGRCVRMODE", py!"Sets/Gets Receiver Working Mode"),
  (py!"QTMCFGRSID", py!"Sets/Gets Reference Station ID"),
  (py!"QTMCFGRTCM", py!"Sets/Gets RTCM"),
  (py!"QTMCFGRTK", py!"Sets/Gets RTK Mode"),
  (py!"QTMCFGRTKSRCTYPE", py!"Sets/Gets RTK Source Type"),
  (py!"QTMMCFGRTKSRCTYPE", py!"Sets/Gets RTK Source Type"),
  (py!"QTMCFGSAT", py!"Sets/Gets GNSS Satellite Mask"),
  (py!"QTMCFGSBAS", py!"Sets/Gets SBAS"),
  (py!"QTMCFGSIGGRP", py!"Sets/Gets GNSS Signal Group"),
  (py!"QTMCFGSIGNAL", py!"Sets/Gets Antenna1 Signal Mask"),
  (py!"QTMCFGSIGNAL2", py!"Sets/Gets Antenna2 Signal Mask"),
  (py!"QTMCFGSTATICHOLD", py!"Sets/Gets Parking Static Hold"),
  (py!"QTMCFGSVIN", py!"Sets/Gets Survey-In Feature"),
  (py!"QTMCFGUART", py!"Configure UART Interface"),
  (py!"QTMCFGVEHMOT", py!"Sets/Gets Vehicle Motion Detection"),
  (py!"QTMCFGWN", py!"Sets/Gets Reference Start Week No"),
  (py!"QTMCOLD", py!"Cold Start"),
  (py!"QTMDEBUGOFF", py!"Disable Debug Log Output"),
  (py!"QTMDEBUGON", py!"Enable Debug Log Output"),
  (py!"QTMDOP", py!"Outputs Dilution of Precision"),
  (py!"QTMDRCAL", py!"Dead Reckoning Calibration Status"),
  (py!"QTMDRCLR", py!"Clear DR Calibration Data"),
  (py!"QTMDRPVA", py!"DR Postion, Velosity and Attitude"),
  (py!"QTMDRSAVE", py!"Save DR Calibration Data"),
  (py!"QTMEOE", py!"Output End of Epoch Information"),
  (py!"QTMEPE", py!"Output Estimated Position Error"),
  (py!"QTMGEOFENCESTATUS", py!"Outputs Geofence Status"),
  (py!"QTMGETUTC", py!"Get UTC Time Information"),
  (py!"QTMGNSSSTART", py!"Starts GNSS Engine"),
  (py!"QTMGNSSSTOP", py!"Stops GNSS Engine"),
  (py!"QTMGPS", py!"Position Status in GNSS Mode"),
  (py!"QTMHOT", py!"Hot Start"),
  (py!"QTMIMU", py!"IMU Raw Data"),
  (py!"QTMIMUTYPE", py!"IMU Status"),
  (py!"QTMINS", py!"Navigation Results"),
  (py!"QTMJAMMINGSTATUS", py!"Jamming Detection Status"),
  (py!"QTMLS", py!"Outputs Leap Second Forecast Information"),
  (py!"QTMNAV", py!"Output Navigation Information"),
  (py!"QTMODO", py!"Outputs Odometer Information"),
  (py!"QTMPL", py!"Outputs Protection Level Information"),
  (py!"QTMPVT", py!"Outputs PVT (GNSS) Result"),
  (py!"QTMQVER", py!"Queries Version Information"),
  (py!"QTMRESETODO", py!"Reset Odometer Distance"),
  (py!"QTMRESTOREPAR", py!"Restore to Default Values after Restart"),
  (py!"QTMSAVEPAR", py!"Save Configuration to Non-Volatile Memory"),
  (py!"QTMSENMSG", py!"Sensor Information"),
  (py!"QTMSN", py!"Queries Module Serial Number Code"),
  (py!"QTMSRR", py!"System Reset and Reboot"),
  (py!"QTMSTD", py!"Outputs Time, Position, Velocoity and Attitude Deviations"),
  (py!"QTMSVINSTATUS", py!"Outputs Survey-In Status"),
  (py!"QTMTAR", py!"Output Time and Attitude"),
  (py!"QTMTXT", py!"Outputs Short Text Message"),
  (py!"QTMUNIQID", py!"Query Module Unique ID"),
  (py!"QTMVEHATT", py!"Output Vehicle Attitude"),
  (py!"QTMVEHMOT", py!"Output Vehicle Motion after DR Calibration"),
  (py!"QTMVEHMSG", py!"Output Vehicle Information"),
  (py!"QTMVEL", py!"Output Velocity Information"),
  (py!"QTMVER", py!"Firmware Version"),
  (py!"QTMVERNO", py!"Query Firmware Version"),
  (py!"QTMWARM", py!"Warm Start"),
  (py!"STMCOLD", py!"Perform cold start"),
  (py!"STMCPU", py!"Output CPU usage and speed"),
  (py!"STMDR1", py!"Report gyroscope and accelerometer details"),
  (py!"STMDR2", py!"Report calibration status and availability"),
  (py!"STMDRBSD", py!"Report IMU bias error estimates"),
  (py!"STMDRCAL", py!"Report IMU and odometer calibration status"),
  (py!"STMDRCONFID", py!"Report navigation and calibration error estimates"),
  (py!"STMDRDEBUG", py!"Report DR debug information"),
  (py!"STMDREPE", py!"Report DR horizontal position error estimates"),
  (py!"STMDRGPS", py!"Report GNSS information"),
  (py!"STMDRMMFB", py!"Set DR algorithm input data"),
  (py!"STMDRMMFBKF", py!"Report MMFB data timing, acceptance, and usage"),
  (py!"STMDRPVA", py!"Report PVT estimated by DR"),
  (py!"STMDRPVASD", py!"Report DR PVT error estimates"),
  (py!"STMDRSENMSG", py!"Output the IMU raw data"),
  (py!"STMDRSINT", py!"Report sensor integration samples"),
  (py!"STMDRSTYPE", py!"Report DR type"),
  (py!"STMDRSVF", py!"Report IMU vehicle dynamics"),
  (py!"STMDRUPD", py!"Quectel internal debugging"),
  (py!"STMEPHEM", py!"Load ephemeris into NVM"),
  (py!"STMHOT", py!"Perform hot start"),
  (py!"STMIMUSELFTESTCMD", py!"Execute IMU self-test"),
  (py!"STMINITGPS", py!"Initialise GPS"),
  (py!"STMINITGPSERROR", py!"Initialise GPS Nak"),
  (py!"STMINITGPSOK", py!"Initialise GPS Ack"),
  (py!"STMINITTIME", py!"Initialise time"),
  (py!"STMINITTIMEERROR", py!"Initialise time Nak"),
  (py!"STMINITTIMEOK", py!"Initialise time Ack"),
  (py!"STMPPSDATA", py!"Output the PPS data"),
  (py!"STMRESTOREPAR", py!"Restore the factory setting parameters"),
  (py!"STMSAVEPAR", py!"Save current configuration data block to NVM"),
  (py!"STMSBAS", py!"Output SBAS satellite data"),
  (py!"STMSETPAR", py!"Set parameter"),
  (py!"STMSETPARERROR", py!"Set parameter Nak"),
  (py!"STMSETPAROK", py!"Set parameter Ack"),
  (py!"STMSRR", py!"Execute system reset and reboot"),
  (py!"STMTEMP", py!"Report temperature"),
  (py!"STMTG", py!"Output time and satellite information"),
  (py!"STMTS", py!"Output tracked satellite parameters"),
  (py!"STMWARM", py!"Perform warm start"),
  (py!"SSNHRP", py!"Heading, Roll, Pitch"),
  (py!"SSNRBD", py!"Rover Base Direction"),
  (py!"SSNRBP", py!"Rover Base Position"),
  (py!"SSNRBV", py!"Rover Base Velocity"),
  (py!"SSNSNC", py!"NTRIP Client Status"),
  (py!"SSNTFM", py!"Used RTCM Coordinate Transformation Messages"),
  (py!"UBX00", py!"Lat/Long Position Data"),
  (py!"UBX03", py!"Satellite Status"),
  (py!"UBX04", py!"Time of Day and Clock Information"),
  (py!"UBX05", py!"Lat/Long Position Data"),
  (py!"UBX06", py!"Lat/Long Position Data"),
  (py!"UBX40", py!"Set NMEA Message Output Rate"),
  (py!"UBX41", py!"Set Protocols and Baudrate"),
  (py!"ASHR", py!"RT300 Roll and Pitch"),
  (py!"ASHRALR", py!"Alarms"),
  (py!"ASHRARA", py!"True Heading"),
  (py!"ASHRARR", py!"Vector & Accuracy"),
  (py!"ASHRATT", py!"True Heading"),
  (py!"ASHRBTS", py!"Bluetooth Status"),
  (py!"ASHRCAP", py!"Parameters of Antenna Used at Received Base"),
  (py!"ASHRCPA", py!"Height of Antenna Used at Received Base"),
  (py!"ASHRCPO", py!"Position of Received Base"),
  (py!"ASHRDDM", py!"Differential Decoder Message"),
  (py!"ASHRDDS", py!"Differential Decoder Status"),
  (py!"ASHRHPR", py!"True Heading"),
  (py!"ASHRLTN", py!"Latency"),
  (py!"ASHRMDM", py!"Modem State and Parameter"),
  (py!"ASHRPOS", py!"Position"),
  (py!"ASHRPBN", py!"Position and Velocity Information"),
  (py!"ASHRPTT", py!"PPS Time Tag"),
  (py!"ASHRPWR", py!"Power Status"),
  (py!"ASHRRCS", py!"Recording Status"),
  (py!"ASHRSBD", py!"BEIDOU Satellites Status"),
  (py!"ASHRSGA", py!"GALILEO Satellites Status (E1,E5a,E5b)"),
  (py!"ASHRSGL", py!"GLONASS Satellites Status"),
  (py!"ASHRSGO", py!"GALILEO Satellites Status (E1,E5a,E5b,E6)"),
  (py!"ASHRSGP", py!"GPS Satellites Status"),
  (py!"ASHRSIR", py!"IRNSS Satellites Status"),
  (py!"ASHRSLB", py!"L-Band Satellites Status"),
  (py!"ASHRSQZ", py!"QZSS Satellites Status"),
  (py!"ASHRSSB", py!"SBAS Satellites Status"),
  (py!"ASHRTEM", py!"Receiver Temperature"),
  (py!"ASHRTHS", py!"True Heading and Status"),
  (py!"ASHRTTT", py!"Event Marker"),
  (py!"ASHRVCR", py!"Vector and Accuracy"),
  (py!"ASHRVCT", py!"Vector and Accuracy"),
  (py!"ASHRVEL", py!"Velocity"),
  (py!"FUGDP", py!"Fugro Dynamic Positioning"),
  (py!"GPPADV110", py!"Position and satellite information for RTK network operations 110"),
  (py!"GPPADV120", py!"Position and satellite information for RTK network operations 120"),
  (py!"TNLAVR", py!"Time, yaw, tilt/roll, range for moving baseline RTK"),
  (py!"TNLBPQ", py!"Base station position and quality indicator"),
  (py!"TNLDG", py!"L-band corrections and beacon signal strength and related information"),
  (py!"TNLEVT", py!"Event marker data"),
  (py!"TNLGGK", py!"Time, position, position type, DOP"),
  (py!"TNLGGKx", py!"GNSS Position Message"),
  (py!"TNLPJK", py!"Local coordinate position output"),
  (py!"TNLPJT", py!"Projection type"),
  (py!"TNLREX", py!"Rover Extended Output"),
  (py!"TNLVGK", py!"Vector information"),
  (py!"TNLVHD", py!"Heading information"),
  (py!"FECGPATT", py!"Attitude yaw, pitch, roll"),
  (py!"FECGPHVE", py!"Heave"),
  (py!"INVCRES", py!"Clear the NVM data"),
  (py!"INVCSTR", py!"Start session"),
  (py!"INVMATTIT", py!"ATTIT information"),
  (py!"INVMIMU", py!"MEMS RAW-DATA message information"),
  (py!"INVMINR", py!"Calibration status"),
  (py!"INVMSTR", py!"Session Status"),
  (py!"INVMSLOPE", py!"SLOPE information"),
  (py!"LSC", py!"Set status/poll version"),
  (py!"LSR", py!"Set status response"),
  (py!"LSVD", py!"Attitude yaw, pitch, roll")]

/-- `NMEA_PREFIX_PROP` (/repo/src/pynmeagps/nmeatypes_core.py:754-754). -/
def NMEA_PREFIX_PROP : List Str := [py!"ASHR", py!"GPPADV", py!"FEC", py!"SSN", py!"TNL", py!"UBX"]

end Nmea
