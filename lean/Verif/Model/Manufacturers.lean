import Verif.Model.Core
/-!
# Model of `src/manufacturers.rs`
-/
namespace MBus

/-- `ManufacturerInfo`, src/manufacturers.rs:2-6. -/
structure ManufacturerInfo where
  name : String
  website : String
  description : String
  deriving DecidableEq, Repr

/-- The arms of `lookup_manufacturer`, src/manufacturers.rs:12-644, in order. -/
def manufacturerTable : List (String × ManufacturerInfo) :=
  [("ABB", ⟨"ABB AB", "abb.com", "Power and automation technologies (Sweden)"⟩),
   ("ACE", ⟨"Actaris Electricity", "itron.com", "Electricity metering (acquired by Itron)"⟩),
   ("ACG", ⟨"Actaris Gas", "itron.com", "Gas metering (acquired by Itron)"⟩),
   ("ACW", ⟨"Actaris Water & Heat", "itron.com", "Water and heat metering (acquired by Itron)"⟩),
   ("AEG", ⟨"AEG", "aeg.com", "Electrical engineering (Germany)"⟩),
   ("AEL", ⟨"Kohler", "", "Metering solutions (Turkey)"⟩),
   ("AEM", ⟨"S.C. AEM S.A.", "", "Metering solutions (Romania)"⟩),
   ("AMP", ⟨"Ampy Automation Digilog Ltd", "", "Electricity metering (UK)"⟩),
   ("AMT", ⟨"Aquametro", "aquametro.com", "Water and heat metering (Switzerland)"⟩),
   ("APS", ⟨"Apsis Kontrol Sistemleri", "apsis.com.tr", "Control systems (Turkey)"⟩),
   ("BEC", ⟨"Berg Energiekontrollsysteme GmbH", "berg-energie.de", "Energy monitoring systems (Germany)"⟩),
   ("BER", ⟨"Bernina Electronic AG", "", "Electronic metering"⟩),
   ("BSE", ⟨"Basari Elektronik A.S.", "basari.com.tr", "Electronic metering (Turkey)"⟩),
   ("BST", ⟨"BESTAS Elektronik Optik", "bestas.com.tr", "Electronic metering (Turkey)"⟩),
   ("CBI", ⟨"Circuit Breaker Industries", "cbi.co.za", "Electrical metering (South Africa)"⟩),
   ("CLO", ⟨"Clorius Raab Karcher Energie Service A/S", "", "Heat metering"⟩),
   ("CON", ⟨"Conlog", "", "Prepayment metering solutions"⟩),
   ("CZM", ⟨"Cazzaniga S.p.A.", "", "Water metering (Italy)"⟩),
   ("DAN", ⟨"Danubia", "", "Metering solutions"⟩),
   ("DFS", ⟨"Danfoss A/S", "danfoss.com", "Energy and climate solutions (Denmark)"⟩),
   ("DME", ⟨"Diehl Metering", "diehl-metering.com", "Water and heat metering (Germany)"⟩),
   ("DWZ", ⟨"Lorenz GmbH & Co. KG", "lorenz-meters.de", "Flow measurement (Germany)"⟩),
   ("DZG", ⟨"Deutsche Zählergesellschaft", "dzg.de", "Electricity metering (Germany)"⟩),
   ("EDM", ⟨"EDMI Pty. Ltd.", "edmi-meters.com", "Smart metering solutions (Australia)"⟩),
   ("EFE", ⟨"Engelmann Sensor GmbH", "engelmann.de", "Heat and cooling energy meters (Germany)"⟩),
   ("EKT", ⟨"PA KVANT J.S.", "", "Metering solutions (Russia)"⟩),
   ("ELM", ⟨"Elektromed Elektronik Ltd", "elektromed.com.tr", "Electronic metering (Turkey)"⟩),
   ("ELS", ⟨"Elster Group", "elster.com", "Gas, electricity and water metering"⟩),
   ("ELV", ⟨"Elvaco AB", "elvaco.com", "Wireless M-Bus communication modules (Sweden)"⟩),
   ("EMH", ⟨"EMH metering", "emh-metering.com", "Smart electricity meters (Germany)"⟩),
   ("EMO", ⟨"Enermet", "enermet.de", "Energy metering (Germany)"⟩),
   ("EMU", ⟨"EMU Elektronik AG", "emuag.ch", "Energy measurement (Switzerland)"⟩),
   ("END", ⟨"ENDYS GmbH", "endys.de", "Metering systems (Germany)"⟩),
   ("ENP", ⟨"Kiev Polytechnical Scientific Research", "", "Metering R&D (Ukraine)"⟩),
   ("ENT", ⟨"ENTES Elektronik", "entes.com.tr", "Energy measurement (Turkey)"⟩),
   ("ERL", ⟨"Erelsan Elektrik ve Elektronik", "", "Electrical metering (Turkey)"⟩),
   ("ESM", ⟨"Starion Elektrik ve Elektronik", "", "Electrical metering (Turkey)"⟩),
   ("ESY", ⟨"Easymeter", "easymeter.com", "Electricity metering (Germany)"⟩),
   ("EUR", ⟨"Eurometers Ltd", "", "Utility metering"⟩),
   ("EWT", ⟨"Elin Wasserwerkstechnik", "", "Water metering"⟩),
   ("FED", ⟨"Federal Elektrik", "federal.com.tr", "Electrical equipment (Turkey)"⟩),
   ("FML", ⟨"Siemens Measurements Ltd.", "siemens.com", "Metering (Siemens subsidiary)"⟩),
   ("GAV", ⟨"Carlo Gavazzi", "gavazzi.com", "Energy monitoring and automation (Switzerland)"⟩),
   ("GBJ", ⟨"Grundfos A/S", "grundfos.com", "Pump and flow solutions (Denmark)"⟩),
   ("GEC", ⟨"GEC Meters Ltd.", "", "Electricity metering (UK)"⟩),
   ("GMC", ⟨"GMC-I Gossen-Metrawatt", "gossenmetrawatt.com", "Measurement and energy technology (Germany)"⟩),
   ("GSP", ⟨"Ingenieurbuero Gasperowicz", "m-bus.de", "M-Bus engineering (Germany)"⟩),
   ("GTE", ⟨"Sensoco", "", "Metering solutions"⟩),
   ("GWF", ⟨"GWF MessSysteme AG", "gwf.ch", "Gas and water measurement (Switzerland)"⟩),
   ("HEG", ⟨"Hamburger Elektronik Gesellschaft", "", "Electronic metering (Germany)"⟩),
   ("HEL", ⟨"Heliowatt", "", "Electricity metering"⟩),
   ("HRZ", ⟨"HERZ Messtechnik GmbH", "herz-messtechnik.de", "Flow measurement (Germany)"⟩),
   ("HTC", ⟨"Horstmann Timers and Controls Ltd.", "", "Timing and control (UK)"⟩),
   ("HYD", ⟨"Hydrometer GmbH", "hydrometer.de", "Water metering (Germany)"⟩),
   ("ICM", ⟨"Intracom", "intracom.gr", "Telecommunications and metering (Greece)"⟩),
   ("IDE", ⟨"IMIT S.p.A.", "imit.it", "Control and measurement (Italy)"⟩),
   ("INV", ⟨"Invensys Metering Systems AG", "", "Metering solutions"⟩),
   ("ISK", ⟨"Iskraemeco", "iskraemeco.com", "Electricity and smart metering (Slovenia)"⟩),
   ("IST", ⟨"ista SE", "ista.com", "Energy and water services (Germany)"⟩),
   ("ITR", ⟨"Itron", "itron.com", "Smart metering and grid solutions (USA)"⟩),
   ("ITW", ⟨"ista SE", "ista.com", "Energy services and submetering (Germany)"⟩),
   ("IWK", ⟨"IWK Regler und Kompensatoren GmbH", "", "Control and compensation (Germany)"⟩),
   ("JAN", ⟨"Janitza Electronics GmbH", "janitza.de", "Power quality and energy measurement (Germany)"⟩),
   ("KAM", ⟨"Kamstrup A/S", "kamstrup.com", "Energy and water metering (Denmark)"⟩),
   ("KHL", ⟨"Kohler", "", "Metering solutions (Turkey)"⟩),
   ("KKE", ⟨"KK-Electronic A/S", "", "Electronic metering (Denmark)"⟩),
   ("KNX", ⟨"KNX Association", "knx.org", "Building automation standard (Belgium)"⟩),
   ("KRO", ⟨"Elster Kromschröder", "elster.com", "Gas metering and combustion (Germany)"⟩),
   ("KST", ⟨"Kundo SystemTechnik GmbH", "kundo.de", "Heat cost allocators (Germany)"⟩),
   ("LEM", ⟨"LEM HEME Ltd.", "lem.com", "Current and voltage transducers (UK)"⟩),
   ("LGB", ⟨"Landis+Gyr UK", "landisgyr.com", "Energy management solutions (UK)"⟩),
   ("LGD", ⟨"Landis+Gyr Germany", "landisgyr.com", "Energy management solutions (Germany)"⟩),
   ("LGZ", ⟨"Landis+Gyr AG Zug", "landisgyr.com", "Energy management solutions (Switzerland)"⟩),
   ("LHA", ⟨"Atlantic Meters", "atlantic-meters.com", "Metering solutions (South Africa)"⟩),
   ("LML", ⟨"LUMEL S.A.", "lumel.com.pl", "Measurement and control (Poland)"⟩),
   ("LSE", ⟨"Landis & Staefa Electronic", "siemens.com", "Building technologies and metering (Siemens)"⟩),
   ("LSP", ⟨"Landis & Staefa Production", "siemens.com", "Building technologies and metering (Siemens)"⟩),
   ("LSZ", ⟨"Siemens Building Technologies", "siemens.com", "Building automation and metering (Germany)"⟩),
   ("LUG", ⟨"Landis+Gyr", "landisgyr.com", "Global energy management solutions"⟩),
   ("MAD", ⟨"Maddalena S.r.l.", "maddalena.it", "Water metering (Italy)"⟩),
   ("MEI", ⟨"H. Meinecke AG", "", "Water metering (now Invensys)"⟩),
   ("MKS", ⟨"MAK-SAY Elektrik Elektronik", "", "Electrical metering (Turkey)"⟩),
   ("MNS", ⟨"MANAS Elektronik", "manas.com.tr", "Electronic metering (Turkey)"⟩),
   ("MPS", ⟨"Multiprocessor Systems Ltd", "mps.bg", "Metering systems (Bulgaria)"⟩),
   ("MTC", ⟨"Metering Technology Corporation", "", "Metering solutions (USA)"⟩),
   ("NIS", ⟨"Nisko Industries", "", "Metering solutions (Israel)"⟩),
   ("NMS", ⟨"Nisko Advanced Metering Solutions", "", "Advanced metering (Israel)"⟩),
   ("NRM", ⟨"Norm Elektronik", "", "Electronic metering (Turkey)"⟩),
   ("NZR", ⟨"NZR GmbH", "nzr.de", "Energy metering systems (Germany)"⟩),
   ("ONR", ⟨"ONUR Elektroteknik", "", "Electrical metering (Turkey)"⟩),
   ("PAD", ⟨"PadMess GmbH", "padmess.de", "M-Bus data acquisition (Germany)"⟩),
   ("PMG", ⟨"Spanner-Pollux GmbH", "", "Metering solutions (now Invensys)"⟩),
   ("PRI", ⟨"Polymeters Response International Ltd.", "", "Utility metering (UK)"⟩),
   ("RAM", ⟨"Rossweiner Armaturen und Messgeräte", "", "Metering instruments (Germany)"⟩),
   ("RAS", ⟨"Hydrometer GmbH", "hydrometer.de", "Water metering (Germany)"⟩),
   ("REL", ⟨"Relay GmbH", "relay.de", "Remote reading and M-Bus (Germany)"⟩),
   ("RKE", ⟨"ista SE", "ista.com", "Energy services and submetering (Germany)"⟩),
   ("SAP", ⟨"Sappel", "sappel.com", "Water metering (France)"⟩),
   ("SBC", ⟨"Saia-Burgess Controls", "saia-pcd.com", "Building automation controllers (Switzerland)"⟩),
   ("SCH", ⟨"Schnitzel GmbH", "", "Metering solutions (Germany)"⟩),
   ("SEN", ⟨"Sensus", "sensus.com", "Water and gas metering"⟩),
   ("SEO", ⟨"Sensoco", "", "Metering solutions"⟩),
   ("SIE", ⟨"Siemens AG", "siemens.com", "Electrification, automation and digitalization (Germany)"⟩),
   ("SLB", ⟨"Schlumberger Industries", "slb.com", "Energy and water metering"⟩),
   ("SME", ⟨"Siame", "", "Metering solutions (Tunisia)"⟩),
   ("SML", ⟨"Siemens Measurements Ltd.", "siemens.com", "Metering (Siemens subsidiary, UK)"⟩),
   ("SOF", ⟨"softflow.de GmbH", "softflow.de", "M-Bus software and metering (Germany)"⟩),
   ("SON", ⟨"Sontex SA", "sontex.ch", "Heat and water metering (Switzerland)"⟩),
   ("SPL", ⟨"Sappel", "sappel.com", "Water metering (France)"⟩),
   ("SPX", ⟨"Spanner & Pluss", "spanner-pluss.de", "Gas metering (Germany)"⟩),
   ("SVM", ⟨"AB Svensk Värmemätning SVM", "", "Heat metering (Sweden)"⟩),
   ("TCH", ⟨"Techem", "techem.com", "Heat cost allocators and submetering (Germany)"⟩),
   ("TIP", ⟨"TIP Thüringer Industrie Produkte GmbH", "stromzaehler.de", "Electricity metering (Germany)"⟩),
   ("UAG", ⟨"Uher", "", "Metering solutions"⟩),
   ("UGI", ⟨"United Gas Industries", "", "Gas metering"⟩),
   ("VES", ⟨"ista SE", "ista.com", "Energy services and submetering (Germany)"⟩),
   ("VPI", ⟨"Van Putten Instruments B.V.", "", "Measurement instruments (Netherlands)"⟩),
   ("WEP", ⟨"Wepsta", "", "Heat metering"⟩),
   ("WMO", ⟨"Westermo Teleindustri AB", "westermo.se", "Industrial data communications (Sweden)"⟩),
   ("WZG", ⟨"Modularis", "", "Metering solutions"⟩),
   ("YTE", ⟨"Yuksek Teknoloji", "", "High technology metering (Turkey)"⟩),
   ("ZAG", ⟨"Zellwerg Uster AG", "", "Metering solutions (Switzerland)"⟩),
   ("ZAP", ⟨"Zaptronix", "", "Metering solutions"⟩),
   ("ZIV", ⟨"ZIV Aplicaciones y Tecnologia S.A.", "ziv.es", "Smart grid and metering (Spain)"⟩),
   ("ZRI", ⟨"ZENNER International GmbH & Co. KG", "zenner.com", "Water, heat and gas metering (Germany)"⟩),
   ("ZRM", ⟨"Minol Messtechnik", "minol.de", "Heat cost allocators and submetering (Germany)"⟩)]

/-- `lookup_manufacturer`, src/manufacturers.rs:11-645. -/
def lookupManufacturer (code : List Char) : Option ManufacturerInfo :=
  manufacturerTable.lookup (String.ofList code)

end MBus
