Traceback (most recent call last):
  File "/verif/tools/seed.py", line 178, in <module>
    main()
  File "/verif/tools/seed.py", line 149, in main
    edits = [json.loads(l) for l in open(sys.argv[1]) if l.strip()]
                                    ^^^^^^^^^^^^^^^^^
FileNotFoundError: [Errno 2] No such file or directory: 'seedR.jsonl'
