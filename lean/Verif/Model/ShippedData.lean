import Verif.Model.Calib

/-!
# `calib/data/time_correction.dat`, `calib/data/illumination_profile/mpik_190414.dat`

The two tables of numbers shipped with the package, row by row, and the classes that load them.
-/

namespace Verif.Model

open Verif.Py

/-- module 0 (`calib/data/time_correction.dat:2-65`) -/
def tCor00 : List Int :=
  [-1675005690253032400, -1235296379938427600, -936179770273954300, -1117290811710612400, -994923809166765800, -1177095937765587600,
   -1118492840035168600, -1087383593766434500, -1056954794767266600, -1254958203781898500, -655133548926800400, -1036191119157637400,
   -747151454978267400, -1096810064855321000, -1124735780252566200, -1225767211829842200, -1240815639763342500, -822978770668600300,
   -1433834484099835200, -1456166552058024000, -1168952363318071800, -727187472144310300, -1126841324326202300, -896027698651844300,
   -914255054226638300, -1125187677691338300, -1230556417982635400, -875737932741410500, -1000719906226694000, -882933199532290900,
   -927932017689686600, -1213906922797578700, -1563408958314364000, -1513405431967230800, -976018538316795600, -743542863428162700,
   -843251276528393700, -875693452143894200, -1085230916335982600, -912586729656917500, -640710674967140500, -917987659030538900,
   -743110189552000700, -1064044203411003000, -1287542541506882400, -907783990010502500, -851463688138333100, -628375021423979400,
   -27136159463632348, -26338058181769820, -264467201547669230, -461996146182644060, 142431914597634930, 178774698475430820,
   -465818470277741040, 8163525817310946, 18206521129906283, 681967551045966200, 129925074820368400, 196712046075530500,
   -14811888328351452, 523025687256056800, 535592372524062300, 343329112349719300]

/-- module 1 (`calib/data/time_correction.dat:66-129`) -/
def tCor01 : List Int :=
  [-1675005690253032400, -1235296379938427600, -936179770273954300, -1117290811710612400, -994923809166765800, -1177095937765587600,
   -1118492840035168600, -1087383593766434500, -1056954794767266600, -1254958203781898500, -655133548926800400, -1036191119157637400,
   -747151454978267400, -1096810064855321000, -1124735780252566200, -1225767211829842200, -1240815639763342500, -822978770668600300,
   -1433834484099835200, -1456166552058024000, -1168952363318071800, -727187472144310300, -1126841324326202300, -896027698651844300,
   -914255054226638300, -1125187677691338300, -1230556417982635400, -875737932741410500, -1000719906226694000, -882933199532290900,
   -927932017689686600, -1213906922797578700, -1563408958314364000, -1513405431967230800, -976018538316795600, -743542863428162700,
   -843251276528393700, -875693452143894200, -1085230916335982600, -912586729656917500, -640710674967140500, -917987659030538900,
   -743110189552000700, -1064044203411003000, -1287542541506882400, -907783990010502500, -851463688138333100, -628375021423979400,
   -27136159463632348, -26338058181769820, -264467201547669230, -461996146182644060, 142431914597634930, 178774698475430820,
   -465818470277741040, 8163525817310946, 18206521129906283, 681967551045966200, 129925074820368400, 196712046075530500,
   -14811888328351452, 523025687256056800, 535592372524062300, 343329112349719300]

/-- module 2 (`calib/data/time_correction.dat:130-193`) -/
def tCor02 : List Int :=
  [-1675005690253032400, -1235296379938427600, -936179770273954300, -1117290811710612400, -994923809166765800, -1177095937765587600,
   -1118492840035168600, -1087383593766434500, -1056954794767266600, -1254958203781898500, -655133548926800400, -1036191119157637400,
   -747151454978267400, -1096810064855321000, -1124735780252566200, -1225767211829842200, -1240815639763342500, -822978770668600300,
   -1433834484099835200, -1456166552058024000, -1168952363318071800, -727187472144310300, -1126841324326202300, -896027698651844300,
   -914255054226638300, -1125187677691338300, -1230556417982635400, -875737932741410500, -1000719906226694000, -882933199532290900,
   -927932017689686600, -1213906922797578700, -1563408958314364000, -1513405431967230800, -976018538316795600, -743542863428162700,
   -843251276528393700, -875693452143894200, -1085230916335982600, -912586729656917500, -640710674967140500, -917987659030538900,
   -743110189552000700, -1064044203411003000, -1287542541506882400, -907783990010502500, -851463688138333100, -628375021423979400,
   -27136159463632348, -26338058181769820, -264467201547669230, -461996146182644060, 142431914597634930, 178774698475430820,
   -465818470277741040, 8163525817310946, 18206521129906283, 681967551045966200, 129925074820368400, 196712046075530500,
   -14811888328351452, 523025687256056800, 535592372524062300, 343329112349719300]

/-- module 3 (`calib/data/time_correction.dat:194-257`) -/
def tCor03 : List Int :=
  [-1675005690253032400, -1235296379938427600, -936179770273954300, -1117290811710612400, -994923809166765800, -1177095937765587600,
   -1118492840035168600, -1087383593766434500, -1056954794767266600, -1254958203781898500, -655133548926800400, -1036191119157637400,
   -747151454978267400, -1096810064855321000, -1124735780252566200, -1225767211829842200, -1240815639763342500, -822978770668600300,
   -1433834484099835200, -1456166552058024000, -1168952363318071800, -727187472144310300, -1126841324326202300, -896027698651844300,
   -914255054226638300, -1125187677691338300, -1230556417982635400, -875737932741410500, -1000719906226694000, -882933199532290900,
   -927932017689686600, -1213906922797578700, -1563408958314364000, -1513405431967230800, -976018538316795600, -743542863428162700,
   -843251276528393700, -875693452143894200, -1085230916335982600, -912586729656917500, -640710674967140500, -917987659030538900,
   -743110189552000700, -1064044203411003000, -1287542541506882400, -907783990010502500, -851463688138333100, -628375021423979400,
   -27136159463632348, -26338058181769820, -264467201547669230, -461996146182644060, 142431914597634930, 178774698475430820,
   -465818470277741040, 8163525817310946, 18206521129906283, 681967551045966200, 129925074820368400, 196712046075530500,
   -14811888328351452, 523025687256056800, 535592372524062300, 343329112349719300]

/-- module 4 (`calib/data/time_correction.dat:258-321`) -/
def tCor04 : List Int :=
  [-1675005690253032400, -1235296379938427600, -936179770273954300, -1117290811710612400, -994923809166765800, -1177095937765587600,
   -1118492840035168600, -1087383593766434500, -1056954794767266600, -1254958203781898500, -655133548926800400, -1036191119157637400,
   -747151454978267400, -1096810064855321000, -1124735780252566200, -1225767211829842200, -1240815639763342500, -822978770668600300,
   -1433834484099835200, -1456166552058024000, -1168952363318071800, -727187472144310300, -1126841324326202300, -896027698651844300,
   -914255054226638300, -1125187677691338300, -1230556417982635400, -875737932741410500, -1000719906226694000, -882933199532290900,
   -927932017689686600, -1213906922797578700, -1563408958314364000, -1513405431967230800, -976018538316795600, -743542863428162700,
   -843251276528393700, -875693452143894200, -1085230916335982600, -912586729656917500, -640710674967140500, -917987659030538900,
   -743110189552000700, -1064044203411003000, -1287542541506882400, -907783990010502500, -851463688138333100, -628375021423979400,
   -27136159463632348, -26338058181769820, -264467201547669230, -461996146182644060, 142431914597634930, 178774698475430820,
   -465818470277741040, 8163525817310946, 18206521129906283, 681967551045966200, 129925074820368400, 196712046075530500,
   -14811888328351452, 523025687256056800, 535592372524062300, 343329112349719300]

/-- module 5 (`calib/data/time_correction.dat:322-385`) -/
def tCor05 : List Int :=
  [-1675005690253032400, -1235296379938427600, -936179770273954300, -1117290811710612400, -994923809166765800, -1177095937765587600,
   -1118492840035168600, -1087383593766434500, -1056954794767266600, -1254958203781898500, -655133548926800400, -1036191119157637400,
   -747151454978267400, -1096810064855321000, -1124735780252566200, -1225767211829842200, -1240815639763342500, -822978770668600300,
   -1433834484099835200, -1456166552058024000, -1168952363318071800, -727187472144310300, -1126841324326202300, -896027698651844300,
   -914255054226638300, -1125187677691338300, -1230556417982635400, -875737932741410500, -1000719906226694000, -882933199532290900,
   -927932017689686600, -1213906922797578700, -1563408958314364000, -1513405431967230800, -976018538316795600, -743542863428162700,
   -843251276528393700, -875693452143894200, -1085230916335982600, -912586729656917500, -640710674967140500, -917987659030538900,
   -743110189552000700, -1064044203411003000, -1287542541506882400, -907783990010502500, -851463688138333100, -628375021423979400,
   -27136159463632348, -26338058181769820, -264467201547669230, -461996146182644060, 142431914597634930, 178774698475430820,
   -465818470277741040, 8163525817310946, 18206521129906283, 681967551045966200, 129925074820368400, 196712046075530500,
   -14811888328351452, 523025687256056800, 535592372524062300, 343329112349719300]

/-- module 6 (`calib/data/time_correction.dat:386-449`) -/
def tCor06 : List Int :=
  [-1675005690253032400, -1235296379938427600, -936179770273954300, -1117290811710612400, -994923809166765800, -1177095937765587600,
   -1118492840035168600, -1087383593766434500, -1056954794767266600, -1254958203781898500, -655133548926800400, -1036191119157637400,
   -747151454978267400, -1096810064855321000, -1124735780252566200, -1225767211829842200, -1240815639763342500, -822978770668600300,
   -1433834484099835200, -1456166552058024000, -1168952363318071800, -727187472144310300, -1126841324326202300, -896027698651844300,
   -914255054226638300, -1125187677691338300, -1230556417982635400, -875737932741410500, -1000719906226694000, -882933199532290900,
   -927932017689686600, -1213906922797578700, -1563408958314364000, -1513405431967230800, -976018538316795600, -743542863428162700,
   -843251276528393700, -875693452143894200, -1085230916335982600, -912586729656917500, -640710674967140500, -917987659030538900,
   -743110189552000700, -1064044203411003000, -1287542541506882400, -907783990010502500, -851463688138333100, -628375021423979400,
   -27136159463632348, -26338058181769820, -264467201547669230, -461996146182644060, 142431914597634930, 178774698475430820,
   -465818470277741040, 8163525817310946, 18206521129906283, 681967551045966200, 129925074820368400, 196712046075530500,
   -14811888328351452, 523025687256056800, 535592372524062300, 343329112349719300]

/-- module 7 (`calib/data/time_correction.dat:450-513`) -/
def tCor07 : List Int :=
  [-1675005690253032400, -1235296379938427600, -936179770273954300, -1117290811710612400, -994923809166765800, -1177095937765587600,
   -1118492840035168600, -1087383593766434500, -1056954794767266600, -1254958203781898500, -655133548926800400, -1036191119157637400,
   -747151454978267400, -1096810064855321000, -1124735780252566200, -1225767211829842200, -1240815639763342500, -822978770668600300,
   -1433834484099835200, -1456166552058024000, -1168952363318071800, -727187472144310300, -1126841324326202300, -896027698651844300,
   -914255054226638300, -1125187677691338300, -1230556417982635400, -875737932741410500, -1000719906226694000, -882933199532290900,
   -927932017689686600, -1213906922797578700, -1563408958314364000, -1513405431967230800, -976018538316795600, -743542863428162700,
   -843251276528393700, -875693452143894200, -1085230916335982600, -912586729656917500, -640710674967140500, -917987659030538900,
   -743110189552000700, -1064044203411003000, -1287542541506882400, -907783990010502500, -851463688138333100, -628375021423979400,
   -27136159463632348, -26338058181769820, -264467201547669230, -461996146182644060, 142431914597634930, 178774698475430820,
   -465818470277741040, 8163525817310946, 18206521129906283, 681967551045966200, 129925074820368400, 196712046075530500,
   -14811888328351452, 523025687256056800, 535592372524062300, 343329112349719300]

/-- module 8 (`calib/data/time_correction.dat:514-577`) -/
def tCor08 : List Int :=
  [-1675005690253032400, -1235296379938427600, -936179770273954300, -1117290811710612400, -994923809166765800, -1177095937765587600,
   -1118492840035168600, -1087383593766434500, -1056954794767266600, -1254958203781898500, -655133548926800400, -1036191119157637400,
   -747151454978267400, -1096810064855321000, -1124735780252566200, -1225767211829842200, -1240815639763342500, -822978770668600300,
   -1433834484099835200, -1456166552058024000, -1168952363318071800, -727187472144310300, -1126841324326202300, -896027698651844300,
   -914255054226638300, -1125187677691338300, -1230556417982635400, -875737932741410500, -1000719906226694000, -882933199532290900,
   -927932017689686600, -1213906922797578700, -1563408958314364000, -1513405431967230800, -976018538316795600, -743542863428162700,
   -843251276528393700, -875693452143894200, -1085230916335982600, -912586729656917500, -640710674967140500, -917987659030538900,
   -743110189552000700, -1064044203411003000, -1287542541506882400, -907783990010502500, -851463688138333100, -628375021423979400,
   -27136159463632348, -26338058181769820, -264467201547669230, -461996146182644060, 142431914597634930, 178774698475430820,
   -465818470277741040, 8163525817310946, 18206521129906283, 681967551045966200, 129925074820368400, 196712046075530500,
   -14811888328351452, 523025687256056800, 535592372524062300, 343329112349719300]

/-- module 9 (`calib/data/time_correction.dat:578-641`) -/
def tCor09 : List Int :=
  [-1675005690253032400, -1235296379938427600, -936179770273954300, -1117290811710612400, -994923809166765800, -1177095937765587600,
   -1118492840035168600, -1087383593766434500, -1056954794767266600, -1254958203781898500, -655133548926800400, -1036191119157637400,
   -747151454978267400, -1096810064855321000, -1124735780252566200, -1225767211829842200, -1240815639763342500, -822978770668600300,
   -1433834484099835200, -1456166552058024000, -1168952363318071800, -727187472144310300, -1126841324326202300, -896027698651844300,
   -914255054226638300, -1125187677691338300, -1230556417982635400, -875737932741410500, -1000719906226694000, -882933199532290900,
   -927932017689686600, -1213906922797578700, -1563408958314364000, -1513405431967230800, -976018538316795600, -743542863428162700,
   -843251276528393700, -875693452143894200, -1085230916335982600, -912586729656917500, -640710674967140500, -917987659030538900,
   -743110189552000700, -1064044203411003000, -1287542541506882400, -907783990010502500, -851463688138333100, -628375021423979400,
   -27136159463632348, -26338058181769820, -264467201547669230, -461996146182644060, 142431914597634930, 178774698475430820,
   -465818470277741040, 8163525817310946, 18206521129906283, 681967551045966200, 129925074820368400, 196712046075530500,
   -14811888328351452, 523025687256056800, 535592372524062300, 343329112349719300]

/-- module 10 (`calib/data/time_correction.dat:642-705`) -/
def tCor10 : List Int :=
  [-1675005690253032400, -1235296379938427600, -936179770273954300, -1117290811710612400, -994923809166765800, -1177095937765587600,
   -1118492840035168600, -1087383593766434500, -1056954794767266600, -1254958203781898500, -655133548926800400, -1036191119157637400,
   -747151454978267400, -1096810064855321000, -1124735780252566200, -1225767211829842200, -1240815639763342500, -822978770668600300,
   -1433834484099835200, -1456166552058024000, -1168952363318071800, -727187472144310300, -1126841324326202300, -896027698651844300,
   -914255054226638300, -1125187677691338300, -1230556417982635400, -875737932741410500, -1000719906226694000, -882933199532290900,
   -927932017689686600, -1213906922797578700, -1563408958314364000, -1513405431967230800, -976018538316795600, -743542863428162700,
   -843251276528393700, -875693452143894200, -1085230916335982600, -912586729656917500, -640710674967140500, -917987659030538900,
   -743110189552000700, -1064044203411003000, -1287542541506882400, -907783990010502500, -851463688138333100, -628375021423979400,
   -27136159463632348, -26338058181769820, -264467201547669230, -461996146182644060, 142431914597634930, 178774698475430820,
   -465818470277741040, 8163525817310946, 18206521129906283, 681967551045966200, 129925074820368400, 196712046075530500,
   -14811888328351452, 523025687256056800, 535592372524062300, 343329112349719300]

/-- module 11 (`calib/data/time_correction.dat:706-769`) -/
def tCor11 : List Int :=
  [-1675005690253032400, -1235296379938427600, -936179770273954300, -1117290811710612400, -994923809166765800, -1177095937765587600,
   -1118492840035168600, -1087383593766434500, -1056954794767266600, -1254958203781898500, -655133548926800400, -1036191119157637400,
   -747151454978267400, -1096810064855321000, -1124735780252566200, -1225767211829842200, -1240815639763342500, -822978770668600300,
   -1433834484099835200, -1456166552058024000, -1168952363318071800, -727187472144310300, -1126841324326202300, -896027698651844300,
   -914255054226638300, -1125187677691338300, -1230556417982635400, -875737932741410500, -1000719906226694000, -882933199532290900,
   -927932017689686600, -1213906922797578700, -1563408958314364000, -1513405431967230800, -976018538316795600, -743542863428162700,
   -843251276528393700, -875693452143894200, -1085230916335982600, -912586729656917500, -640710674967140500, -917987659030538900,
   -743110189552000700, -1064044203411003000, -1287542541506882400, -907783990010502500, -851463688138333100, -628375021423979400,
   -27136159463632348, -26338058181769820, -264467201547669230, -461996146182644060, 142431914597634930, 178774698475430820,
   -465818470277741040, 8163525817310946, 18206521129906283, 681967551045966200, 129925074820368400, 196712046075530500,
   -14811888328351452, 523025687256056800, 535592372524062300, 343329112349719300]

/-- module 12 (`calib/data/time_correction.dat:770-833`) -/
def tCor12 : List Int :=
  [-1675005690253032400, -1235296379938427600, -936179770273954300, -1117290811710612400, -994923809166765800, -1177095937765587600,
   -1118492840035168600, -1087383593766434500, -1056954794767266600, -1254958203781898500, -655133548926800400, -1036191119157637400,
   -747151454978267400, -1096810064855321000, -1124735780252566200, -1225767211829842200, -1240815639763342500, -822978770668600300,
   -1433834484099835200, -1456166552058024000, -1168952363318071800, -727187472144310300, -1126841324326202300, -896027698651844300,
   -914255054226638300, -1125187677691338300, -1230556417982635400, -875737932741410500, -1000719906226694000, -882933199532290900,
   -927932017689686600, -1213906922797578700, -1563408958314364000, -1513405431967230800, -976018538316795600, -743542863428162700,
   -843251276528393700, -875693452143894200, -1085230916335982600, -912586729656917500, -640710674967140500, -917987659030538900,
   -743110189552000700, -1064044203411003000, -1287542541506882400, -907783990010502500, -851463688138333100, -628375021423979400,
   -27136159463632348, -26338058181769820, -264467201547669230, -461996146182644060, 142431914597634930, 178774698475430820,
   -465818470277741040, 8163525817310946, 18206521129906283, 681967551045966200, 129925074820368400, 196712046075530500,
   -14811888328351452, 523025687256056800, 535592372524062300, 343329112349719300]

/-- module 13 (`calib/data/time_correction.dat:834-897`) -/
def tCor13 : List Int :=
  [-1675005690253032400, -1235296379938427600, -936179770273954300, -1117290811710612400, -994923809166765800, -1177095937765587600,
   -1118492840035168600, -1087383593766434500, -1056954794767266600, -1254958203781898500, -655133548926800400, -1036191119157637400,
   -747151454978267400, -1096810064855321000, -1124735780252566200, -1225767211829842200, -1240815639763342500, -822978770668600300,
   -1433834484099835200, -1456166552058024000, -1168952363318071800, -727187472144310300, -1126841324326202300, -896027698651844300,
   -914255054226638300, -1125187677691338300, -1230556417982635400, -875737932741410500, -1000719906226694000, -882933199532290900,
   -927932017689686600, -1213906922797578700, -1563408958314364000, -1513405431967230800, -976018538316795600, -743542863428162700,
   -843251276528393700, -875693452143894200, -1085230916335982600, -912586729656917500, -640710674967140500, -917987659030538900,
   -743110189552000700, -1064044203411003000, -1287542541506882400, -907783990010502500, -851463688138333100, -628375021423979400,
   -27136159463632348, -26338058181769820, -264467201547669230, -461996146182644060, 142431914597634930, 178774698475430820,
   -465818470277741040, 8163525817310946, 18206521129906283, 681967551045966200, 129925074820368400, 196712046075530500,
   -14811888328351452, 523025687256056800, 535592372524062300, 343329112349719300]

/-- module 14 (`calib/data/time_correction.dat:898-961`) -/
def tCor14 : List Int :=
  [-1675005690253032400, -1235296379938427600, -936179770273954300, -1117290811710612400, -994923809166765800, -1177095937765587600,
   -1118492840035168600, -1087383593766434500, -1056954794767266600, -1254958203781898500, -655133548926800400, -1036191119157637400,
   -747151454978267400, -1096810064855321000, -1124735780252566200, -1225767211829842200, -1240815639763342500, -822978770668600300,
   -1433834484099835200, -1456166552058024000, -1168952363318071800, -727187472144310300, -1126841324326202300, -896027698651844300,
   -914255054226638300, -1125187677691338300, -1230556417982635400, -875737932741410500, -1000719906226694000, -882933199532290900,
   -927932017689686600, -1213906922797578700, -1563408958314364000, -1513405431967230800, -976018538316795600, -743542863428162700,
   -843251276528393700, -875693452143894200, -1085230916335982600, -912586729656917500, -640710674967140500, -917987659030538900,
   -743110189552000700, -1064044203411003000, -1287542541506882400, -907783990010502500, -851463688138333100, -628375021423979400,
   -27136159463632348, -26338058181769820, -264467201547669230, -461996146182644060, 142431914597634930, 178774698475430820,
   -465818470277741040, 8163525817310946, 18206521129906283, 681967551045966200, 129925074820368400, 196712046075530500,
   -14811888328351452, 523025687256056800, 535592372524062300, 343329112349719300]

/-- module 15 (`calib/data/time_correction.dat:962-1025`) -/
def tCor15 : List Int :=
  [-1675005690253032400, -1235296379938427600, -936179770273954300, -1117290811710612400, -994923809166765800, -1177095937765587600,
   -1118492840035168600, -1087383593766434500, -1056954794767266600, -1254958203781898500, -655133548926800400, -1036191119157637400,
   -747151454978267400, -1096810064855321000, -1124735780252566200, -1225767211829842200, -1240815639763342500, -822978770668600300,
   -1433834484099835200, -1456166552058024000, -1168952363318071800, -727187472144310300, -1126841324326202300, -896027698651844300,
   -914255054226638300, -1125187677691338300, -1230556417982635400, -875737932741410500, -1000719906226694000, -882933199532290900,
   -927932017689686600, -1213906922797578700, -1563408958314364000, -1513405431967230800, -976018538316795600, -743542863428162700,
   -843251276528393700, -875693452143894200, -1085230916335982600, -912586729656917500, -640710674967140500, -917987659030538900,
   -743110189552000700, -1064044203411003000, -1287542541506882400, -907783990010502500, -851463688138333100, -628375021423979400,
   -27136159463632348, -26338058181769820, -264467201547669230, -461996146182644060, 142431914597634930, 178774698475430820,
   -465818470277741040, 8163525817310946, 18206521129906283, 681967551045966200, 129925074820368400, 196712046075530500,
   -14811888328351452, 523025687256056800, 535592372524062300, 343329112349719300]

/-- module 16 (`calib/data/time_correction.dat:1026-1089`) -/
def tCor16 : List Int :=
  [-155005690253032350, 284703620061572460, 583820229726045700, 402709188289387600, 525076190833234200, 342904062234412400,
   401507159964831440, 432616406233565560, 463045205232733400, 265041796218101530, 864866451073199600, 483808880842362600,
   772848545021732600, 423189935144679060, 395264219747433860, 294232788170157860, 279184360236657500, 697021229331399800,
   86165515900164860, 63833447941975980, 351047636681928200, 792812527855689700, 393158675673797700, 623972301348155700,
   605744945773361700, 394812322308661700, 289443582017364640, 644262067258589500, 519280093773306000, 637066800467709100,
   592067982310313400, 306093077202421300, -43408958314363980, 6594568032769255, 543981461683204400, 776457136571837300,
   676748723471606300, 644306547856105900, 434769083664017450, 607413270343082600, 879289325032859500, 602012340969461100,
   776889810447999300, 455955796588997100, 232457458493117600, 612216009989497500, 668536311861667000, 891624978576020600,
   1492863840536367700, 1493661941818230200, 1255532798452330800, 1058003853817356000, 1662431914597635000, 1698774698475430800,
   1054181529722259000, 1528163525817311000, 1538206521129906300, 2201967551045966000, 1649925074820368400, 1716712046075530500,
   1505188111671648600, 2043025687256056600, 2055592372524062000, 1863329112349719300]

/-- module 17 (`calib/data/time_correction.dat:1090-1153`) -/
def tCor17 : List Int :=
  [-155005690253032350, 284703620061572460, 583820229726045700, 402709188289387600, 525076190833234200, 342904062234412400,
   401507159964831440, 432616406233565560, 463045205232733400, 265041796218101530, 864866451073199600, 483808880842362600,
   772848545021732600, 423189935144679060, 395264219747433860, 294232788170157860, 279184360236657500, 697021229331399800,
   86165515900164860, 63833447941975980, 351047636681928200, 792812527855689700, 393158675673797700, 623972301348155700,
   605744945773361700, 394812322308661700, 289443582017364640, 644262067258589500, 519280093773306000, 637066800467709100,
   592067982310313400, 306093077202421300, -43408958314363980, 6594568032769255, 543981461683204400, 776457136571837300,
   676748723471606300, 644306547856105900, 434769083664017450, 607413270343082600, 879289325032859500, 602012340969461100,
   776889810447999300, 455955796588997100, 232457458493117600, 612216009989497500, 668536311861667000, 891624978576020600,
   1492863840536367700, 1493661941818230200, 1255532798452330800, 1058003853817356000, 1662431914597635000, 1698774698475430800,
   1054181529722259000, 1528163525817311000, 1538206521129906300, 2201967551045966000, 1649925074820368400, 1716712046075530500,
   1505188111671648600, 2043025687256056600, 2055592372524062000, 1863329112349719300]

/-- module 18 (`calib/data/time_correction.dat:1154-1217`) -/
def tCor18 : List Int :=
  [-155005690253032350, 284703620061572460, 583820229726045700, 402709188289387600, 525076190833234200, 342904062234412400,
   401507159964831440, 432616406233565560, 463045205232733400, 265041796218101530, 864866451073199600, 483808880842362600,
   772848545021732600, 423189935144679060, 395264219747433860, 294232788170157860, 279184360236657500, 697021229331399800,
   86165515900164860, 63833447941975980, 351047636681928200, 792812527855689700, 393158675673797700, 623972301348155700,
   605744945773361700, 394812322308661700, 289443582017364640, 644262067258589500, 519280093773306000, 637066800467709100,
   592067982310313400, 306093077202421300, -43408958314363980, 6594568032769255, 543981461683204400, 776457136571837300,
   676748723471606300, 644306547856105900, 434769083664017450, 607413270343082600, 879289325032859500, 602012340969461100,
   776889810447999300, 455955796588997100, 232457458493117600, 612216009989497500, 668536311861667000, 891624978576020600,
   1492863840536367700, 1493661941818230200, 1255532798452330800, 1058003853817356000, 1662431914597635000, 1698774698475430800,
   1054181529722259000, 1528163525817311000, 1538206521129906300, 2201967551045966000, 1649925074820368400, 1716712046075530500,
   1505188111671648600, 2043025687256056600, 2055592372524062000, 1863329112349719300]

/-- module 19 (`calib/data/time_correction.dat:1218-1281`) -/
def tCor19 : List Int :=
  [-155005690253032350, 284703620061572460, 583820229726045700, 402709188289387600, 525076190833234200, 342904062234412400,
   401507159964831440, 432616406233565560, 463045205232733400, 265041796218101530, 864866451073199600, 483808880842362600,
   772848545021732600, 423189935144679060, 395264219747433860, 294232788170157860, 279184360236657500, 697021229331399800,
   86165515900164860, 63833447941975980, 351047636681928200, 792812527855689700, 393158675673797700, 623972301348155700,
   605744945773361700, 394812322308661700, 289443582017364640, 644262067258589500, 519280093773306000, 637066800467709100,
   592067982310313400, 306093077202421300, -43408958314363980, 6594568032769255, 543981461683204400, 776457136571837300,
   676748723471606300, 644306547856105900, 434769083664017450, 607413270343082600, 879289325032859500, 602012340969461100,
   776889810447999300, 455955796588997100, 232457458493117600, 612216009989497500, 668536311861667000, 891624978576020600,
   1492863840536367700, 1493661941818230200, 1255532798452330800, 1058003853817356000, 1662431914597635000, 1698774698475430800,
   1054181529722259000, 1528163525817311000, 1538206521129906300, 2201967551045966000, 1649925074820368400, 1716712046075530500,
   1505188111671648600, 2043025687256056600, 2055592372524062000, 1863329112349719300]

/-- module 20 (`calib/data/time_correction.dat:1282-1345`) -/
def tCor20 : List Int :=
  [-155005690253032350, 284703620061572460, 583820229726045700, 402709188289387600, 525076190833234200, 342904062234412400,
   401507159964831440, 432616406233565560, 463045205232733400, 265041796218101530, 864866451073199600, 483808880842362600,
   772848545021732600, 423189935144679060, 395264219747433860, 294232788170157860, 279184360236657500, 697021229331399800,
   86165515900164860, 63833447941975980, 351047636681928200, 792812527855689700, 393158675673797700, 623972301348155700,
   605744945773361700, 394812322308661700, 289443582017364640, 644262067258589500, 519280093773306000, 637066800467709100,
   592067982310313400, 306093077202421300, -43408958314363980, 6594568032769255, 543981461683204400, 776457136571837300,
   676748723471606300, 644306547856105900, 434769083664017450, 607413270343082600, 879289325032859500, 602012340969461100,
   776889810447999300, 455955796588997100, 232457458493117600, 612216009989497500, 668536311861667000, 891624978576020600,
   1492863840536367700, 1493661941818230200, 1255532798452330800, 1058003853817356000, 1662431914597635000, 1698774698475430800,
   1054181529722259000, 1528163525817311000, 1538206521129906300, 2201967551045966000, 1649925074820368400, 1716712046075530500,
   1505188111671648600, 2043025687256056600, 2055592372524062000, 1863329112349719300]

/-- module 21 (`calib/data/time_correction.dat:1346-1409`) -/
def tCor21 : List Int :=
  [-155005690253032350, 284703620061572460, 583820229726045700, 402709188289387600, 525076190833234200, 342904062234412400,
   401507159964831440, 432616406233565560, 463045205232733400, 265041796218101530, 864866451073199600, 483808880842362600,
   772848545021732600, 423189935144679060, 395264219747433860, 294232788170157860, 279184360236657500, 697021229331399800,
   86165515900164860, 63833447941975980, 351047636681928200, 792812527855689700, 393158675673797700, 623972301348155700,
   605744945773361700, 394812322308661700, 289443582017364640, 644262067258589500, 519280093773306000, 637066800467709100,
   592067982310313400, 306093077202421300, -43408958314363980, 6594568032769255, 543981461683204400, 776457136571837300,
   676748723471606300, 644306547856105900, 434769083664017450, 607413270343082600, 879289325032859500, 602012340969461100,
   776889810447999300, 455955796588997100, 232457458493117600, 612216009989497500, 668536311861667000, 891624978576020600,
   1492863840536367700, 1493661941818230200, 1255532798452330800, 1058003853817356000, 1662431914597635000, 1698774698475430800,
   1054181529722259000, 1528163525817311000, 1538206521129906300, 2201967551045966000, 1649925074820368400, 1716712046075530500,
   1505188111671648600, 2043025687256056600, 2055592372524062000, 1863329112349719300]

/-- module 22 (`calib/data/time_correction.dat:1410-1473`) -/
def tCor22 : List Int :=
  [-155005690253032350, 284703620061572460, 583820229726045700, 402709188289387600, 525076190833234200, 342904062234412400,
   401507159964831440, 432616406233565560, 463045205232733400, 265041796218101530, 864866451073199600, 483808880842362600,
   772848545021732600, 423189935144679060, 395264219747433860, 294232788170157860, 279184360236657500, 697021229331399800,
   86165515900164860, 63833447941975980, 351047636681928200, 792812527855689700, 393158675673797700, 623972301348155700,
   605744945773361700, 394812322308661700, 289443582017364640, 644262067258589500, 519280093773306000, 637066800467709100,
   592067982310313400, 306093077202421300, -43408958314363980, 6594568032769255, 543981461683204400, 776457136571837300,
   676748723471606300, 644306547856105900, 434769083664017450, 607413270343082600, 879289325032859500, 602012340969461100,
   776889810447999300, 455955796588997100, 232457458493117600, 612216009989497500, 668536311861667000, 891624978576020600,
   1492863840536367700, 1493661941818230200, 1255532798452330800, 1058003853817356000, 1662431914597635000, 1698774698475430800,
   1054181529722259000, 1528163525817311000, 1538206521129906300, 2201967551045966000, 1649925074820368400, 1716712046075530500,
   1505188111671648600, 2043025687256056600, 2055592372524062000, 1863329112349719300]

/-- module 23 (`calib/data/time_correction.dat:1474-1537`) -/
def tCor23 : List Int :=
  [-155005690253032350, 284703620061572460, 583820229726045700, 402709188289387600, 525076190833234200, 342904062234412400,
   401507159964831440, 432616406233565560, 463045205232733400, 265041796218101530, 864866451073199600, 483808880842362600,
   772848545021732600, 423189935144679060, 395264219747433860, 294232788170157860, 279184360236657500, 697021229331399800,
   86165515900164860, 63833447941975980, 351047636681928200, 792812527855689700, 393158675673797700, 623972301348155700,
   605744945773361700, 394812322308661700, 289443582017364640, 644262067258589500, 519280093773306000, 637066800467709100,
   592067982310313400, 306093077202421300, -43408958314363980, 6594568032769255, 543981461683204400, 776457136571837300,
   676748723471606300, 644306547856105900, 434769083664017450, 607413270343082600, 879289325032859500, 602012340969461100,
   776889810447999300, 455955796588997100, 232457458493117600, 612216009989497500, 668536311861667000, 891624978576020600,
   1492863840536367700, 1493661941818230200, 1255532798452330800, 1058003853817356000, 1662431914597635000, 1698774698475430800,
   1054181529722259000, 1528163525817311000, 1538206521129906300, 2201967551045966000, 1649925074820368400, 1716712046075530500,
   1505188111671648600, 2043025687256056600, 2055592372524062000, 1863329112349719300]

/-- module 24 (`calib/data/time_correction.dat:1538-1601`) -/
def tCor24 : List Int :=
  [-155005690253032350, 284703620061572460, 583820229726045700, 402709188289387600, 525076190833234200, 342904062234412400,
   401507159964831440, 432616406233565560, 463045205232733400, 265041796218101530, 864866451073199600, 483808880842362600,
   772848545021732600, 423189935144679060, 395264219747433860, 294232788170157860, 279184360236657500, 697021229331399800,
   86165515900164860, 63833447941975980, 351047636681928200, 792812527855689700, 393158675673797700, 623972301348155700,
   605744945773361700, 394812322308661700, 289443582017364640, 644262067258589500, 519280093773306000, 637066800467709100,
   592067982310313400, 306093077202421300, -43408958314363980, 6594568032769255, 543981461683204400, 776457136571837300,
   676748723471606300, 644306547856105900, 434769083664017450, 607413270343082600, 879289325032859500, 602012340969461100,
   776889810447999300, 455955796588997100, 232457458493117600, 612216009989497500, 668536311861667000, 891624978576020600,
   1492863840536367700, 1493661941818230200, 1255532798452330800, 1058003853817356000, 1662431914597635000, 1698774698475430800,
   1054181529722259000, 1528163525817311000, 1538206521129906300, 2201967551045966000, 1649925074820368400, 1716712046075530500,
   1505188111671648600, 2043025687256056600, 2055592372524062000, 1863329112349719300]

/-- module 25 (`calib/data/time_correction.dat:1602-1665`) -/
def tCor25 : List Int :=
  [-155005690253032350, 284703620061572460, 583820229726045700, 402709188289387600, 525076190833234200, 342904062234412400,
   401507159964831440, 432616406233565560, 463045205232733400, 265041796218101530, 864866451073199600, 483808880842362600,
   772848545021732600, 423189935144679060, 395264219747433860, 294232788170157860, 279184360236657500, 697021229331399800,
   86165515900164860, 63833447941975980, 351047636681928200, 792812527855689700, 393158675673797700, 623972301348155700,
   605744945773361700, 394812322308661700, 289443582017364640, 644262067258589500, 519280093773306000, 637066800467709100,
   592067982310313400, 306093077202421300, -43408958314363980, 6594568032769255, 543981461683204400, 776457136571837300,
   676748723471606300, 644306547856105900, 434769083664017450, 607413270343082600, 879289325032859500, 602012340969461100,
   776889810447999300, 455955796588997100, 232457458493117600, 612216009989497500, 668536311861667000, 891624978576020600,
   1492863840536367700, 1493661941818230200, 1255532798452330800, 1058003853817356000, 1662431914597635000, 1698774698475430800,
   1054181529722259000, 1528163525817311000, 1538206521129906300, 2201967551045966000, 1649925074820368400, 1716712046075530500,
   1505188111671648600, 2043025687256056600, 2055592372524062000, 1863329112349719300]

/-- module 26 (`calib/data/time_correction.dat:1666-1729`) -/
def tCor26 : List Int :=
  [-155005690253032350, 284703620061572460, 583820229726045700, 402709188289387600, 525076190833234200, 342904062234412400,
   401507159964831440, 432616406233565560, 463045205232733400, 265041796218101530, 864866451073199600, 483808880842362600,
   772848545021732600, 423189935144679060, 395264219747433860, 294232788170157860, 279184360236657500, 697021229331399800,
   86165515900164860, 63833447941975980, 351047636681928200, 792812527855689700, 393158675673797700, 623972301348155700,
   605744945773361700, 394812322308661700, 289443582017364640, 644262067258589500, 519280093773306000, 637066800467709100,
   592067982310313400, 306093077202421300, -43408958314363980, 6594568032769255, 543981461683204400, 776457136571837300,
   676748723471606300, 644306547856105900, 434769083664017450, 607413270343082600, 879289325032859500, 602012340969461100,
   776889810447999300, 455955796588997100, 232457458493117600, 612216009989497500, 668536311861667000, 891624978576020600,
   1492863840536367700, 1493661941818230200, 1255532798452330800, 1058003853817356000, 1662431914597635000, 1698774698475430800,
   1054181529722259000, 1528163525817311000, 1538206521129906300, 2201967551045966000, 1649925074820368400, 1716712046075530500,
   1505188111671648600, 2043025687256056600, 2055592372524062000, 1863329112349719300]

/-- module 27 (`calib/data/time_correction.dat:1730-1793`) -/
def tCor27 : List Int :=
  [-155005690253032350, 284703620061572460, 583820229726045700, 402709188289387600, 525076190833234200, 342904062234412400,
   401507159964831440, 432616406233565560, 463045205232733400, 265041796218101530, 864866451073199600, 483808880842362600,
   772848545021732600, 423189935144679060, 395264219747433860, 294232788170157860, 279184360236657500, 697021229331399800,
   86165515900164860, 63833447941975980, 351047636681928200, 792812527855689700, 393158675673797700, 623972301348155700,
   605744945773361700, 394812322308661700, 289443582017364640, 644262067258589500, 519280093773306000, 637066800467709100,
   592067982310313400, 306093077202421300, -43408958314363980, 6594568032769255, 543981461683204400, 776457136571837300,
   676748723471606300, 644306547856105900, 434769083664017450, 607413270343082600, 879289325032859500, 602012340969461100,
   776889810447999300, 455955796588997100, 232457458493117600, 612216009989497500, 668536311861667000, 891624978576020600,
   1492863840536367700, 1493661941818230200, 1255532798452330800, 1058003853817356000, 1662431914597635000, 1698774698475430800,
   1054181529722259000, 1528163525817311000, 1538206521129906300, 2201967551045966000, 1649925074820368400, 1716712046075530500,
   1505188111671648600, 2043025687256056600, 2055592372524062000, 1863329112349719300]

/-- module 28 (`calib/data/time_correction.dat:1794-1857`) -/
def tCor28 : List Int :=
  [-155005690253032350, 284703620061572460, 583820229726045700, 402709188289387600, 525076190833234200, 342904062234412400,
   401507159964831440, 432616406233565560, 463045205232733400, 265041796218101530, 864866451073199600, 483808880842362600,
   772848545021732600, 423189935144679060, 395264219747433860, 294232788170157860, 279184360236657500, 697021229331399800,
   86165515900164860, 63833447941975980, 351047636681928200, 792812527855689700, 393158675673797700, 623972301348155700,
   605744945773361700, 394812322308661700, 289443582017364640, 644262067258589500, 519280093773306000, 637066800467709100,
   592067982310313400, 306093077202421300, -43408958314363980, 6594568032769255, 543981461683204400, 776457136571837300,
   676748723471606300, 644306547856105900, 434769083664017450, 607413270343082600, 879289325032859500, 602012340969461100,
   776889810447999300, 455955796588997100, 232457458493117600, 612216009989497500, 668536311861667000, 891624978576020600,
   1492863840536367700, 1493661941818230200, 1255532798452330800, 1058003853817356000, 1662431914597635000, 1698774698475430800,
   1054181529722259000, 1528163525817311000, 1538206521129906300, 2201967551045966000, 1649925074820368400, 1716712046075530500,
   1505188111671648600, 2043025687256056600, 2055592372524062000, 1863329112349719300]

/-- module 29 (`calib/data/time_correction.dat:1858-1921`) -/
def tCor29 : List Int :=
  [-155005690253032350, 284703620061572460, 583820229726045700, 402709188289387600, 525076190833234200, 342904062234412400,
   401507159964831440, 432616406233565560, 463045205232733400, 265041796218101530, 864866451073199600, 483808880842362600,
   772848545021732600, 423189935144679060, 395264219747433860, 294232788170157860, 279184360236657500, 697021229331399800,
   86165515900164860, 63833447941975980, 351047636681928200, 792812527855689700, 393158675673797700, 623972301348155700,
   605744945773361700, 394812322308661700, 289443582017364640, 644262067258589500, 519280093773306000, 637066800467709100,
   592067982310313400, 306093077202421300, -43408958314363980, 6594568032769255, 543981461683204400, 776457136571837300,
   676748723471606300, 644306547856105900, 434769083664017450, 607413270343082600, 879289325032859500, 602012340969461100,
   776889810447999300, 455955796588997100, 232457458493117600, 612216009989497500, 668536311861667000, 891624978576020600,
   1492863840536367700, 1493661941818230200, 1255532798452330800, 1058003853817356000, 1662431914597635000, 1698774698475430800,
   1054181529722259000, 1528163525817311000, 1538206521129906300, 2201967551045966000, 1649925074820368400, 1716712046075530500,
   1505188111671648600, 2043025687256056600, 2055592372524062000, 1863329112349719300]

/-- module 30 (`calib/data/time_correction.dat:1922-1985`) -/
def tCor30 : List Int :=
  [-155005690253032350, 284703620061572460, 583820229726045700, 402709188289387600, 525076190833234200, 342904062234412400,
   401507159964831440, 432616406233565560, 463045205232733400, 265041796218101530, 864866451073199600, 483808880842362600,
   772848545021732600, 423189935144679060, 395264219747433860, 294232788170157860, 279184360236657500, 697021229331399800,
   86165515900164860, 63833447941975980, 351047636681928200, 792812527855689700, 393158675673797700, 623972301348155700,
   605744945773361700, 394812322308661700, 289443582017364640, 644262067258589500, 519280093773306000, 637066800467709100,
   592067982310313400, 306093077202421300, -43408958314363980, 6594568032769255, 543981461683204400, 776457136571837300,
   676748723471606300, 644306547856105900, 434769083664017450, 607413270343082600, 879289325032859500, 602012340969461100,
   776889810447999300, 455955796588997100, 232457458493117600, 612216009989497500, 668536311861667000, 891624978576020600,
   1492863840536367700, 1493661941818230200, 1255532798452330800, 1058003853817356000, 1662431914597635000, 1698774698475430800,
   1054181529722259000, 1528163525817311000, 1538206521129906300, 2201967551045966000, 1649925074820368400, 1716712046075530500,
   1505188111671648600, 2043025687256056600, 2055592372524062000, 1863329112349719300]

/-- module 31 (`calib/data/time_correction.dat:1986-2049`) -/
def tCor31 : List Int :=
  [-155005690253032350, 284703620061572460, 583820229726045700, 402709188289387600, 525076190833234200, 342904062234412400,
   401507159964831440, 432616406233565560, 463045205232733400, 265041796218101530, 864866451073199600, 483808880842362600,
   772848545021732600, 423189935144679060, 395264219747433860, 294232788170157860, 279184360236657500, 697021229331399800,
   86165515900164860, 63833447941975980, 351047636681928200, 792812527855689700, 393158675673797700, 623972301348155700,
   605744945773361700, 394812322308661700, 289443582017364640, 644262067258589500, 519280093773306000, 637066800467709100,
   592067982310313400, 306093077202421300, -43408958314363980, 6594568032769255, 543981461683204400, 776457136571837300,
   676748723471606300, 644306547856105900, 434769083664017450, 607413270343082600, 879289325032859500, 602012340969461100,
   776889810447999300, 455955796588997100, 232457458493117600, 612216009989497500, 668536311861667000, 891624978576020600,
   1492863840536367700, 1493661941818230200, 1255532798452330800, 1058003853817356000, 1662431914597635000, 1698774698475430800,
   1054181529722259000, 1528163525817311000, 1538206521129906300, 2201967551045966000, 1649925074820368400, 1716712046075530500,
   1505188111671648600, 2043025687256056600, 2055592372524062000, 1863329112349719300]

/-- the column `t_cor` of `calib/data/time_correction.dat:2-2049` (rows of the pixels 0 to 2047 in this order), in units of 1e-18 samples -/
def tCorDigits : List Int :=
  tCor00 ++ tCor01 ++ tCor02 ++ tCor03 ++ tCor04 ++ tCor05 ++ tCor06 ++ tCor07 ++
  tCor08 ++ tCor09 ++ tCor10 ++ tCor11 ++ tCor12 ++ tCor13 ++ tCor14 ++ tCor15 ++
  tCor16 ++ tCor17 ++ tCor18 ++ tCor19 ++ tCor20 ++ tCor21 ++ tCor22 ++ tCor23 ++
  tCor24 ++ tCor25 ++ tCor26 ++ tCor27 ++ tCor28 ++ tCor29 ++ tCor30 ++ tCor31

/-- the time corrections as they stand in the file, in samples -/
def shippedTCor : List ℚ := tCorDigits.map fun z : Int => (z : ℚ) / 10 ^ 18

/-- module 0 (`calib/data/illumination_profile/mpik_190414.dat:2-65`) -/
def profile00 : List Int :=
  [1019573, 1018983, 1017332, 1018627, 1005943, 988671, 994760, 1010157, 1017651, 1016569, 1010537, 1013898, 996068, 976851, 982836, 1000990,
   987914, 991892, 970298, 962622, 1015850, 1007126, 1015027, 1008450, 973502, 941177, 953139, 982375, 1007549, 1012721, 998138, 1004414,
   1013152, 1014744, 1009706, 1005871, 995920, 995441, 996986, 993687, 999185, 1011121, 1001342, 1009918, 1001615, 1005986, 1001375, 1006187,
   992676, 999945, 996690, 1000863, 1002401, 1006609, 1004173, 1006865, 1008489, 1000249, 1003142, 994823, 1014655, 1012453, 1009870, 1006002]

/-- module 1 (`calib/data/illumination_profile/mpik_190414.dat:66-129`) -/
def profile01 : List Int :=
  [1001654, 1010342, 1005065, 1011322, 1002597, 1004520, 999750, 997705, 1012106, 1012387, 1009010, 1007748, 1007939, 1009179, 1007978, 1006316,
   1006269, 1007796, 1008326, 1005673, 1012150, 1008232, 1011395, 1009083, 1002663, 998817, 1002026, 1004144, 1009176, 1010286, 1006237, 1006998,
   1016466, 1015752, 1016791, 1017912, 1015268, 1003047, 1007566, 1013969, 1019954, 1017325, 1019063, 1018259, 1009634, 1009452, 1015357, 1014538,
   1009922, 1005932, 1011335, 1006529, 1012273, 1013339, 1007109, 1008212, 1012815, 1013389, 1011060, 1011464, 1015017, 1014090, 1015705, 1014645]

/-- module 2 (`calib/data/illumination_profile/mpik_190414.dat:130-193`) -/
def profile02 : List Int :=
  [1014515, 1017086, 1015845, 1018046, 1013718, 1009825, 1008549, 1012386, 1015819, 1011346, 1008299, 1013389, 1007147, 1005825, 1008692, 1011628,
   1001250, 1002841, 1002915, 1001641, 1006893, 1001543, 1004709, 1003412, 1006168, 1004090, 1002393, 1002931, 1007700, 1005400, 1006962, 1003337,
   1018732, 1015745, 1018473, 1020016, 1017567, 1008781, 1010787, 1016914, 1020675, 1020283, 1020739, 1019931, 1011104, 1009378, 1017531, 1016472,
   1003879, 997690, 1007126, 999600, 1011016, 1014315, 1002807, 1006353, 1008572, 1010080, 1008309, 1007478, 1012425, 1009872, 1016186, 1013248]

/-- module 3 (`calib/data/illumination_profile/mpik_190414.dat:194-257`) -/
def profile03 : List Int :=
  [1019622, 1016939, 1018411, 1013460, 1016491, 1007385, 1006462, 1016120, 1009500, 1005751, 1016226, 1017153, 1019695, 1014731, 1010583, 1017795,
   1024213, 1021860, 1018519, 1021464, 1002882, 1016639, 1001075, 1016001, 1030109, 1026075, 1023875, 1026913, 999456, 1000041, 1020321, 1018102,
   1000392, 994561, 988841, 995304, 1000937, 1003976, 999516, 1006629, 1008292, 1006423, 1002029, 1011900, 994795, 990380, 994903, 989200,
   965905, 967749, 974471, 977532, 980089, 984445, 983183, 986778, 982052, 973280, 978060, 966494, 989652, 985693, 983321, 978507]

/-- module 4 (`calib/data/illumination_profile/mpik_190414.dat:258-321`) -/
def profile04 : List Int :=
  [988693, 970553, 1000315, 983676, 1018146, 1024028, 1018412, 1009304, 993455, 999521, 1010880, 1008109, 1022541, 1024121, 1026155, 1023041,
   1010233, 1017353, 1018611, 1011605, 1002405, 1005738, 1003492, 1009285, 1000032, 1000312, 1005115, 1003986, 1005026, 1004182, 1001243, 1002687,
   990755, 998483, 1006699, 998890, 996692, 973974, 984444, 987450, 979711, 980883, 990324, 968310, 993855, 1003873, 1004462, 1012460,
   1025627, 1021204, 1028244, 1024078, 1026418, 1020462, 1021591, 1013983, 1011234, 1021602, 1012321, 1020928, 1004397, 1008612, 1013818, 1019158]

/-- module 5 (`calib/data/illumination_profile/mpik_190414.dat:322-385`) -/
def profile05 : List Int :=
  [996776, 991521, 998243, 993895, 1001702, 1001639, 1001088, 1001041, 995954, 998268, 1002096, 999922, 1005604, 1007032, 1004148, 1003365,
   1010635, 1008007, 1008761, 1009416, 1001384, 1008704, 1005147, 1005040, 1018635, 1014041, 1010627, 1014008, 1011293, 1008732, 1016735, 1012728,
   993572, 995858, 995118, 993009, 990304, 988042, 987987, 988848, 988274, 991263, 990718, 988479, 990394, 993418, 992545, 994756,
   997456, 996491, 996862, 995621, 996640, 996145, 995608, 995256, 1004000, 999842, 1005304, 1000530, 998554, 1001508, 997018, 998633]

/-- module 6 (`calib/data/illumination_profile/mpik_190414.dat:386-449`) -/
def profile06 : List Int :=
  [985031, 984082, 983302, 981524, 988398, 994260, 991920, 988409, 980377, 980591, 982576, 982537, 986780, 989534, 993453, 987919,
   983216, 985151, 984503, 980374, 981454, 982710, 982251, 982829, 979838, 976960, 978010, 981291, 983204, 982738, 981706, 982157,
   984350, 984340, 993277, 993503, 1002615, 1003936, 1006784, 1001720, 994954, 985460, 993989, 987725, 1008662, 1008850, 1003183, 1002957,
   990198, 993591, 994552, 998619, 998674, 1001569, 1003600, 1007199, 985111, 989541, 984973, 987312, 984811, 985140, 992797, 991555]

/-- module 7 (`calib/data/illumination_profile/mpik_190414.dat:450-513`) -/
def profile07 : List Int :=
  [993209, 994669, 993198, 992310, 995365, 1000310, 997088, 993090, 990250, 988614, 989343, 991880, 991713, 997426, 1000471, 994905,
   984970, 987744, 993181, 989770, 987328, 984789, 986319, 986630, 985686, 989051, 988345, 984350, 985093, 985561, 984951, 984293,
   988866, 987818, 986305, 987328, 987768, 987279, 986848, 989640, 992591, 991207, 989464, 994713, 985360, 982983, 986021, 984528,
   979432, 976732, 980307, 977212, 981687, 983134, 978397, 980425, 985556, 983459, 984365, 982236, 987328, 986654, 985694, 984789]

/-- module 8 (`calib/data/illumination_profile/mpik_190414.dat:514-577`) -/
def profile08 : List Int :=
  [996374, 999205, 997228, 1000638, 991778, 987104, 987091, 991525, 1000695, 1000666, 996093, 996697, 991094, 988563, 987569, 991357,
   993657, 991800, 990154, 992255, 1001808, 998818, 1004345, 996700, 999125, 997040, 994630, 996246, 1010507, 1007510, 1004977, 1001802,
   1000596, 1002034, 1000642, 997255, 991036, 992898, 993807, 989997, 993139, 999342, 994519, 997726, 998168, 1003774, 994990, 1000029,
   1007957, 1012562, 1008221, 1012510, 1007044, 1004333, 1011251, 1008439, 1009707, 1008623, 1011777, 1009320, 1004179, 1006954, 1003974, 1006740]

/-- module 9 (`calib/data/illumination_profile/mpik_190414.dat:578-641`) -/
def profile09 : List Int :=
  [966572, 998352, 979982, 1007870, 952589, 943436, 923989, 935055, 1014446, 1017522, 998210, 990743, 980074, 976202, 960910, 967780,
   996481, 989469, 989055, 999164, 1017574, 1005169, 1016060, 1002645, 1005298, 1010378, 1006232, 1001646, 1013393, 1014460, 1008405, 1006921,
   1023764, 1025097, 1019202, 1016968, 999083, 988242, 998268, 988048, 1001403, 1018787, 1010985, 1010544, 1004446, 1007085, 1006290, 1009754,
   1003076, 1000255, 1005843, 1002615, 1008411, 1010090, 1005045, 1006910, 1016723, 1012237, 1014008, 1009147, 1023369, 1020074, 1018282, 1015520]

/-- module 10 (`calib/data/illumination_profile/mpik_190414.dat:642-705`) -/
def profile10 : List Int :=
  [1028408, 1024842, 1034926, 1029961, 1027747, 1017027, 1011355, 1021146, 1032274, 1030912, 1035095, 1037717, 1026756, 1014870, 1018279, 1030028,
   1009978, 1018992, 1008230, 1001382, 1026196, 1018248, 1019571, 1027672, 999095, 996733, 997353, 1002990, 1005850, 1012513, 1003160, 1009669,
   1015826, 1015963, 1001394, 1000307, 998538, 1007736, 1009575, 998068, 999644, 1014792, 1000586, 1011916, 1009275, 1008493, 997685, 998398,
   1003401, 1001832, 1004914, 1004693, 1003938, 1001113, 1006694, 1007792, 1010762, 1007258, 1006193, 1005066, 1015448, 1013859, 1004157, 1006747]

/-- module 11 (`calib/data/illumination_profile/mpik_190414.dat:706-769`) -/
def profile11 : List Int :=
  [980224, 981211, 976295, 977896, 977422, 981533, 983961, 981087, 978129, 980714, 982882, 978105, 985845, 989338, 984393, 980181,
   994221, 990929, 993210, 995097, 984445, 991976, 988716, 987866, 999392, 997962, 996243, 996695, 998767, 993495, 999719, 995736,
   978768, 979131, 977910, 978530, 978450, 977011, 975328, 980048, 982163, 980005, 980401, 982406, 974402, 975475, 976886, 976791,
   995177, 996388, 990665, 992766, 984799, 979532, 986332, 979704, 991195, 990067, 997211, 995750, 981498, 985736, 979847, 984328]

/-- module 12 (`calib/data/illumination_profile/mpik_190414.dat:770-833`) -/
def profile12 : List Int :=
  [983133, 986032, 982900, 987086, 980970, 979604, 978982, 980998, 985353, 981229, 980671, 982033, 979905, 977950, 979151, 980557,
   978292, 979118, 976868, 976750, 976455, 976996, 972764, 978948, 975412, 977310, 977376, 977231, 969386, 970689, 972351, 974833,
   990358, 982156, 983670, 995198, 1001197, 994502, 1000093, 994441, 992617, 993083, 998568, 989502, 997836, 988460, 997989, 985955,
   968395, 971673, 964671, 969748, 964648, 972407, 970773, 977569, 966184, 963471, 967388, 966890, 972953, 967218, 970822, 963482]

/-- module 13 (`calib/data/illumination_profile/mpik_190414.dat:834-897`) -/
def profile13 : List Int :=
  [983222, 980854, 985520, 983260, 986733, 986874, 985747, 984849, 981819, 976815, 978783, 983936, 980315, 981446, 985353, 985116,
   972091, 975065, 977170, 974531, 971165, 969828, 967786, 973078, 971830, 973761, 973898, 971776, 968053, 967367, 969820, 969532,
   979303, 974620, 972420, 976935, 976905, 975194, 976199, 975290, 976382, 980651, 978401, 978365, 974080, 969701, 975115, 970593,
   970807, 973548, 966918, 968918, 964755, 966193, 965540, 965914, 965895, 965725, 967292, 968283, 969322, 966134, 967557, 965048]

/-- module 14 (`calib/data/illumination_profile/mpik_190414.dat:898-961`) -/
def profile14 : List Int :=
  [972355, 974348, 971795, 974495, 970049, 969976, 971716, 971328, 977598, 981916, 977118, 973777, 973552, 971948, 969961, 970944,
   982137, 977399, 976174, 982287, 985732, 983970, 988515, 980645, 993395, 996483, 989368, 987544, 993458, 990875, 991506, 987462,
   981531, 986847, 990483, 984685, 982350, 983441, 983838, 981565, 979408, 977520, 980314, 976854, 986365, 989986, 986201, 991430,
   1004406, 1001228, 1002823, 999385, 1000154, 996355, 996835, 993664, 996810, 1001910, 998609, 1003435, 991451, 994606, 995686, 999420]

/-- module 15 (`calib/data/illumination_profile/mpik_190414.dat:962-1025`) -/
def profile15 : List Int :=
  [1037379, 1023318, 1037037, 1025088, 1035562, 1019879, 1015621, 1035201, 1023618, 1019748, 1027376, 1033444, 1026989, 1018276, 1020577, 1032594,
   1013188, 1019956, 1014010, 1009260, 1014491, 1013024, 1009026, 1020033, 1005974, 1003266, 1005504, 1008372, 1001444, 1004522, 1005256, 1007946,
   1012034, 1010881, 1007550, 1007610, 1013504, 1026682, 1024021, 1013317, 1003078, 1011110, 1006490, 1007177, 1020696, 1017901, 1012417, 1011340,
   1001314, 1005102, 1005987, 1010015, 1008971, 1010469, 1013443, 1015773, 1001410, 1001889, 997848, 997753, 1008377, 1005048, 1006733, 1004929]

/-- module 16 (`calib/data/illumination_profile/mpik_190414.dat:1026-1089`) -/
def profile16 : List Int :=
  [1010624, 1017097, 1015070, 1020151, 1015818, 1022361, 1019695, 1011505, 1020672, 1019304, 1014714, 1016117, 1015032, 1020685, 1022324, 1016621,
   1007158, 1011766, 1017790, 1013265, 1016695, 1007620, 1013496, 1011662, 995572, 998873, 1006731, 1001533, 1007258, 1010346, 998946, 1003238,
   1025029, 1023503, 1022059, 1023968, 1018312, 1009115, 1012515, 1016575, 1023834, 1025277, 1024693, 1023850, 1012409, 1009414, 1017657, 1015202,
   1009770, 1001687, 1008779, 1000066, 1009358, 1011963, 1001107, 1004931, 1016736, 1016350, 1014777, 1015830, 1021206, 1018752, 1019594, 1017418]

/-- module 17 (`calib/data/illumination_profile/mpik_190414.dat:1090-1153`) -/
def profile17 : List Int :=
  [971068, 972140, 969871, 971592, 969898, 971412, 973171, 971490, 970868, 972458, 970502, 968743, 971018, 972874, 970780, 968964,
   989639, 978257, 979183, 988604, 978740, 989890, 989169, 977824, 1008203, 1002394, 997549, 1001022, 1009012, 1000397, 1011488, 1002527,
   974950, 976637, 981571, 979605, 980923, 981249, 982893, 979459, 977103, 974661, 978098, 974407, 986000, 988712, 983438, 985780,
   988969, 989832, 986827, 987350, 986612, 986771, 987982, 989249, 995282, 989858, 1001561, 993432, 981020, 987829, 983942, 986700]

/-- module 18 (`calib/data/illumination_profile/mpik_190414.dat:1154-1217`) -/
def profile18 : List Int :=
  [976289, 972863, 975579, 971035, 979765, 982572, 981941, 979534, 968820, 966579, 972564, 974333, 977056, 978881, 981567, 978985,
   972075, 974555, 975658, 973057, 964811, 968774, 964011, 970598, 969490, 971851, 971751, 970199, 966002, 964424, 967348, 967516,
   964857, 961977, 961594, 964807, 971191, 975237, 975528, 972184, 970193, 967920, 967978, 970443, 974113, 971671, 968742, 965707,
   972184, 975835, 968169, 973189, 964650, 963789, 970460, 969899, 962663, 963943, 966125, 968351, 960194, 960398, 959716, 960516]

/-- module 19 (`calib/data/illumination_profile/mpik_190414.dat:1218-1281`) -/
def profile19 : List Int :=
  [979807, 979480, 976574, 974390, 976971, 976494, 976795, 978592, 972199, 973027, 974117, 974587, 972925, 970932, 974269, 974898,
   972121, 971771, 968468, 968828, 974796, 974730, 975408, 974421, 974554, 975255, 971906, 973587, 971177, 974012, 972956, 974405,
   968542, 970292, 968407, 966126, 969540, 977726, 973559, 976160, 976322, 971102, 968793, 977875, 972699, 974836, 967458, 969863,
   971330, 974353, 973795, 976923, 975115, 973502, 978463, 977560, 972928, 972433, 969891, 969738, 973307, 974519, 972144, 973831]

/-- module 20 (`calib/data/illumination_profile/mpik_190414.dat:1282-1345`) -/
def profile20 : List Int :=
  [986174, 986596, 986916, 987152, 986784, 987228, 984577, 985339, 983321, 979296, 978175, 982714, 980678, 987084, 987582, 984011,
   984090, 980380, 987175, 988696, 979170, 982489, 983555, 977803, 997296, 997018, 991904, 990272, 994864, 989726, 996601, 989651,
   983742, 981143, 980823, 981904, 978730, 975287, 973811, 979454, 983440, 986375, 983493, 985908, 973055, 974086, 977659, 977771,
   995946, 997754, 991478, 991358, 985714, 980531, 984200, 977909, 990242, 990946, 993497, 993901, 981629, 985464, 982329, 986390]

/-- module 21 (`calib/data/illumination_profile/mpik_190414.dat:1346-1409`) -/
def profile21 : List Int :=
  [1010389, 1012856, 1020156, 1022255, 1024528, 1029056, 1029435, 1019309, 1026156, 1023226, 1022280, 1024644, 1023115, 1023260, 1026924, 1026083,
   1009010, 1016551, 1018535, 1013456, 1014893, 1005009, 1005207, 1014382, 999738, 1004420, 1008725, 1003137, 995373, 998258, 995531, 998270,
   1029995, 1025609, 1026624, 1031886, 1031807, 1018463, 1019001, 1034371, 1036353, 1029828, 1035479, 1025338, 1017957, 1017107, 1027573, 1023486,
   1006409, 1005996, 1012057, 1011819, 1016499, 1020045, 1015335, 1016661, 1003043, 1008898, 999245, 1003988, 1017904, 1009504, 1020570, 1014432]

/-- module 22 (`calib/data/illumination_profile/mpik_190414.dat:1410-1473`) -/
def profile22 : List Int :=
  [995645, 981386, 1010354, 994386, 1021715, 1011424, 995341, 1006168, 1004883, 1013707, 1029057, 1021450, 1039825, 1032247, 1023848, 1033075,
   1042397, 1042469, 1036868, 1038544, 1020987, 1035727, 1026183, 1033588, 1038960, 1036242, 1038124, 1041011, 1028507, 1028736, 1035184, 1036163,
   999100, 1007384, 1012999, 1007394, 1018381, 1026304, 1027279, 1016030, 996485, 990644, 1002318, 980759, 1027059, 1026677, 1020098, 1022314,
   1014037, 1008254, 1021386, 1017209, 1024924, 1024576, 1023218, 1025884, 1023833, 1022465, 1022507, 1018222, 1015310, 1021320, 1018725, 1022559]

/-- module 23 (`calib/data/illumination_profile/mpik_190414.dat:1474-1537`) -/
def profile23 : List Int :=
  [988882, 992495, 991785, 995882, 988200, 985476, 983619, 985906, 998304, 1000595, 997172, 994596, 994237, 991800, 988808, 991356,
   996405, 995760, 992717, 992053, 1003579, 1001661, 1007504, 999398, 1002981, 996552, 992443, 998148, 1016924, 1012065, 1009766, 1004830,
   1002254, 1004482, 1008645, 1006266, 1008161, 1008788, 1011605, 1005342, 1001134, 1000135, 1004285, 996678, 1013937, 1016403, 1010204, 1012734,
   1034322, 1031879, 1029093, 1027855, 1022865, 1016977, 1023592, 1019608, 1019398, 1025679, 1024432, 1031040, 1008230, 1013592, 1012942, 1019126]

/-- module 24 (`calib/data/illumination_profile/mpik_190414.dat:1538-1601`) -/
def profile24 : List Int :=
  [994818, 989803, 991145, 985655, 997188, 1001795, 1004285, 1000112, 984231, 985285, 991774, 990228, 997983, 1001732, 1000997, 996565,
   1000651, 999870, 1002987, 1003745, 986961, 994553, 987400, 993858, 997735, 1002527, 1003539, 999750, 983850, 986051, 990794, 993241,
   980796, 980687, 978663, 980329, 983459, 983914, 984053, 984489, 984999, 982680, 982462, 986451, 982297, 978818, 981349, 978352,
   975735, 974610, 974318, 973082, 974103, 975569, 973105, 975218, 980212, 976488, 979020, 976749, 981190, 981142, 977466, 976736]

/-- module 25 (`calib/data/illumination_profile/mpik_190414.dat:1602-1665`) -/
def profile25 : List Int :=
  [984523, 986437, 985092, 985989, 983716, 980505, 981009, 982963, 984937, 983166, 984265, 985145, 984711, 982379, 981169, 984505,
   982931, 984218, 983204, 982731, 981185, 981080, 979511, 982791, 978691, 978128, 980802, 980969, 978149, 978466, 977985, 979413,
   985711, 983512, 986070, 988189, 994729, 1002079, 999086, 997953, 993500, 987745, 990798, 989429, 996851, 995729, 992030, 990329,
   994284, 1000191, 991982, 998242, 990331, 989733, 996586, 995666, 980394, 985456, 981251, 987291, 981619, 980503, 984750, 984530]

/-- module 26 (`calib/data/illumination_profile/mpik_190414.dat:1666-1729`) -/
def profile26 : List Int :=
  [996430, 991500, 997382, 993102, 1002341, 1007161, 1005825, 1001532, 995208, 998340, 999260, 997894, 1002446, 1008402, 1007623, 1002130,
   1008913, 1004774, 1010644, 1014187, 1002976, 1007947, 1008721, 1002716, 1015290, 1019485, 1017617, 1013039, 1018574, 1014336, 1016513, 1013156,
   994325, 999122, 1000385, 994642, 988550, 984042, 988140, 984301, 985413, 990296, 989019, 987712, 992909, 996704, 994672, 1000215,
   1003652, 998602, 1002026, 996527, 1002595, 1002819, 997111, 997958, 1012976, 1008210, 1016943, 1010892, 1004018, 1008655, 1004409, 1006541]

/-- module 27 (`calib/data/illumination_profile/mpik_190414.dat:1730-1793`) -/
def profile27 : List Int :=
  [1009850, 1020203, 1022626, 1033260, 1008707, 1004410, 996707, 997386, 1041717, 1043834, 1034748, 1031330, 1021215, 1013300, 1009674, 1016731,
   1020396, 1022280, 1015320, 1015039, 1040228, 1028621, 1033759, 1033231, 1010343, 1006069, 1011760, 1016059, 1022413, 1027344, 1017150, 1022801,
   1036588, 1038819, 1021183, 1017090, 986134, 961270, 976116, 972014, 994473, 1028153, 1008004, 1014997, 987639, 996924, 996329, 1003098,
   1014425, 1018373, 1012260, 1015282, 1009944, 1007262, 1010647, 1004557, 1025259, 1017919, 1022236, 1017653, 1035665, 1030130, 1021177, 1019330]

/-- module 28 (`calib/data/illumination_profile/mpik_190414.dat:1794-1857`) -/
def profile28 : List Int :=
  [1020341, 1025331, 1022178, 1025192, 1018810, 1015769, 1012567, 1015792, 1026751, 1029030, 1026747, 1024734, 1023650, 1020692, 1018646, 1021802,
   1020990, 1023288, 1021437, 1021173, 1031039, 1025333, 1031967, 1026993, 1016839, 1021735, 1020930, 1018317, 1028020, 1031172, 1019942, 1022677,
   1026666, 1028675, 1023897, 1023308, 1019261, 1015208, 1010785, 1023324, 1028150, 1026470, 1024648, 1028632, 1006041, 1000880, 1016289, 1014284,
   999748, 968966, 1007760, 980011, 1011546, 1013066, 988488, 995183, 1035697, 1028293, 1032010, 1023012, 1031898, 1034950, 1026108, 1028450]

/-- module 29 (`calib/data/illumination_profile/mpik_190414.dat:1858-1921`) -/
def profile29 : List Int :=
  [1034864, 1034070, 1038165, 1036759, 1032255, 1022035, 1020214, 1029483, 1035871, 1031815, 1034108, 1037724, 1029202, 1019823, 1021537, 1031891,
   1027446, 1026847, 1019425, 1022819, 1027096, 1028194, 1024214, 1030032, 1034964, 1036573, 1029699, 1031088, 1024035, 1023739, 1030398, 1029031,
   1027191, 1023330, 1013211, 1016369, 1010369, 1008385, 1005914, 1012490, 1019396, 1028781, 1018526, 1027762, 1004237, 1003407, 1008167, 1006082,
   1007128, 1005285, 1005605, 1004559, 1004543, 1004686, 1003765, 1003296, 1016513, 1009692, 1017136, 1011057, 1019192, 1016767, 1010359, 1009116]

/-- module 30 (`calib/data/illumination_profile/mpik_190414.dat:1922-1985`) -/
def profile30 : List Int :=
  [1017990, 1025182, 1017800, 1024990, 1011205, 1005630, 1007287, 1011854, 1023184, 1020108, 1015322, 1016921, 1009982, 1004028, 1004545, 1010634,
   1009100, 1009414, 1004006, 1004402, 1017169, 1012717, 1015759, 1013691, 1008600, 1005480, 1005010, 1008952, 1017008, 1016088, 1012303, 1012468,
   1029180, 1024805, 1029834, 1034639, 1040232, 1035521, 1039031, 1038401, 1036810, 1031821, 1037317, 1031952, 1038949, 1036289, 1038515, 1034373,
   1035546, 1039668, 1032569, 1037105, 1029960, 1030603, 1034067, 1033771, 1020478, 1026247, 1022672, 1029199, 1020805, 1019266, 1025505, 1024223]

/-- module 31 (`calib/data/illumination_profile/mpik_190414.dat:1986-2049`) -/
def profile31 : List Int :=
  [1032546, 1029711, 1028183, 1027632, 1025773, 1019535, 1026899, 1031907, 1025816, 1024481, 1019786, 1023696, 1014106, 1006177, 1012365, 1019549,
   1007249, 1010243, 1001695, 998374, 1023792, 1014741, 1022875, 1017083, 995191, 988130, 994451, 1002962, 1012849, 1019854, 1002066, 1010497,
   1026285, 1028070, 1029118, 1024879, 1017048, 1010344, 1013015, 1013936, 1018861, 1025000, 1021178, 1024632, 1016035, 1019429, 1021364, 1026175,
   1039930, 1032960, 1037840, 1030536, 1034728, 1030777, 1027096, 1023209, 1030285, 1037669, 1026593, 1037557, 1029911, 1031021, 1033044, 1036031]

/-- the column `correction` of `calib/data/illumination_profile/mpik_190414.dat:2-2049` (pixels 0 to 2047), in units of 1e-6 -/
def profileDigits : List Int :=
  profile00 ++ profile01 ++ profile02 ++ profile03 ++ profile04 ++ profile05 ++ profile06 ++ profile07 ++
  profile08 ++ profile09 ++ profile10 ++ profile11 ++ profile12 ++ profile13 ++ profile14 ++ profile15 ++
  profile16 ++ profile17 ++ profile18 ++ profile19 ++ profile20 ++ profile21 ++ profile22 ++ profile23 ++
  profile24 ++ profile25 ++ profile26 ++ profile27 ++ profile28 ++ profile29 ++ profile30 ++ profile31

/-- the illumination profile as it stands in the file -/
def shippedProfile : List ℚ := profileDigits.map fun z : Int => (z : ℚ) / 10 ^ 6

/-- types of the samples of an event: R1 data are `float32`, raw data `uint16` (`core/io/tio.py:69-74`); `float64` after arithmetic with
arrays of doubles -/
inductive SampleType | float32 | float64 | uint16
  deriving DecidableEq, Repr

/-- `TimeCalibrator.__call__` (`calib/time_calibrator.py:39-40`) with the corrections read by the constructor (lines 33-37).
`apply_t_cor` was compiled for two types of samples only (lines 7-10); numba converts no arrays, so all others are a `TypeError`. -/
def timeCalibrate (tCor : List ℚ) (type : SampleType) (waveforms : List (List ℚ)) : Except Err (List (List ℚ)) :=
  match type with
  | .uint16 => .error .typeError
  | .float32 => applyTCor waveforms tCor
  | .float64 => applyTCor waveforms tCor

end Verif.Model
